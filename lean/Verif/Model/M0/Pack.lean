import Verif.Model.Pack
/-!
# `Cortex-M_Implementation_KEM/Cortex-M0/saber-ref-mem/src/pack_unpack.c`

All line numbers refer to that file.  Same conventions as in `Model/Pack.lean`: the operands are masked, so the `int` expressions are
non-negative and computed in `Nat`.  Redundant parentheses are dropped.  `SABER_K` is 3.
-/
namespace Saber.M0

/-- `SABER_K` (SABER_params.h:7) -/
abbrev K : Nat := 3

/-- The assignments of `SABER_pack_3bit` (lines 12-14).  Bit 7 of the second byte is bit 2 of `data[5]` in the code. -/
def pack3Blk (d0 d1 d2 d3 d4 d5 d6 d7 : Nat) : List Byte :=
  [ n8 ((d0 &&& 0x7) ||| ((d1 &&& 0x7) <<< 3) ||| ((d2 &&& 0x3) <<< 6)),
    n8 (((d2 >>> 2) &&& 0x01) ||| ((d3 &&& 0x7) <<< 1) ||| ((d4 &&& 0x7) <<< 4) ||| (((d5 >>> 2) &&& 0x01) <<< 7)),
    n8 (((d5 >>> 1) &&& 0x03) ||| ((d6 &&& 0x7) <<< 2) ||| ((d7 &&& 0x7) <<< 5)) ]

/-- `SABER_pack_3bit` (lines 3-16) -/
def SABER_pack_3bit (bytes : List Byte) (off : Nat) (data : List (BitVec 16)) : CM (List Byte) :=
  loop (N / 8) bytes fun j bytes => do
    let d0 ← rdN data (8 * j + 0)
    let d1 ← rdN data (8 * j + 1)
    let d2 ← rdN data (8 * j + 2)
    let d3 ← rdN data (8 * j + 3)
    let d4 ← rdN data (8 * j + 4)
    let d5 ← rdN data (8 * j + 5)
    let d6 ← rdN data (8 * j + 6)
    let d7 ← rdN data (8 * j + 7)
    wrs bytes (off + 3 * j) (pack3Blk d0 d1 d2 d3 d4 d5 d6 d7)

/-- The assignments of `SABER_un_pack3bit` (lines 27-34) -/
def unpack3Blk (b0 b1 b2 : Nat) : List (BitVec 16) :=
  [ n16 (b0 &&& 0x07),
    n16 ((b0 >>> 3) &&& 0x07),
    n16 (((b0 >>> 6) &&& 0x03) ||| ((b1 &&& 0x01) <<< 2)),
    n16 ((b1 >>> 1) &&& 0x07),
    n16 ((b1 >>> 4) &&& 0x07),
    n16 (((b1 >>> 7) &&& 0x01) ||| ((b2 &&& 0x03) <<< 1)),
    n16 (((b2 >>> 2) &&& 0x07)),
    n16 (((b2 >>> 5) &&& 0x07)) ]

/-- `SABER_un_pack3bit` (lines 18-37) -/
def SABER_un_pack3bit (bytes : List Byte) (off : Nat) (data : List (BitVec 16)) : CM (List (BitVec 16)) :=
  loop (N / 8) data fun j data => do
    let b0 ← rdN bytes (off + 3 * j + 0)
    let b1 ← rdN bytes (off + 3 * j + 1)
    let b2 ← rdN bytes (off + 3 * j + 2)
    wrs data (8 * j) (unpack3Blk b0 b1 b2)

/-- The assignment of `SABER_pack_4bit` (line 48) -/
def pack4Blk (d0 d1 : Nat) : List Byte :=
  [ n8 ((d0 &&& 0x0f) ||| ((d1 &&& 0x0f) <<< 4)) ]

/-- `SABER_pack_4bit` (lines 40-50) -/
def SABER_pack_4bit (bytes : List Byte) (off : Nat) (data : List (BitVec 16)) : CM (List Byte) :=
  loop (N / 2) bytes fun j bytes => do
    let d0 ← rdN data (2 * j + 0)
    let d1 ← rdN data (2 * j + 1)
    wrs bytes (off + 1 * j) (pack4Blk d0 d1)

/-- The assignments of `SABER_un_pack4bit` (lines 60-61) -/
def unpack4Blk (b0 : Nat) : List (BitVec 16) :=
  [ n16 (b0 &&& 0x0f),
    n16 ((b0 >>> 4) &&& 0x0f) ]

/-- `SABER_un_pack4bit` (lines 52-67) -/
def SABER_un_pack4bit (bytes : List Byte) (off : Nat) (data : List (BitVec 16)) : CM (List (BitVec 16)) :=
  loop (N / 2) data fun j data => do
    let b0 ← rdN bytes (off + 1 * j + 0)
    wrs data (2 * j) (unpack4Blk b0)

/-- The assignments of `SABER_pack_6bit` (lines 78-80) -/
def pack6Blk (d0 d1 d2 d3 : Nat) : List Byte :=
  [ n8 ((d0 &&& 0x3f) ||| ((d1 &&& 0x03) <<< 6)),
    n8 (((d1 &&& 0x3f) >>> 2) ||| ((d2 &&& 0x0f) <<< 4)),
    n8 (((d2 &&& 0x3f) >>> 4) ||| ((d3 &&& 0x3f) <<< 2)) ]

/-- `SABER_pack_6bit` (lines 69-82) -/
def SABER_pack_6bit (bytes : List Byte) (off : Nat) (data : List (BitVec 16)) : CM (List Byte) :=
  loop (N / 4) bytes fun j bytes => do
    let d0 ← rdN data (4 * j + 0)
    let d1 ← rdN data (4 * j + 1)
    let d2 ← rdN data (4 * j + 2)
    let d3 ← rdN data (4 * j + 3)
    wrs bytes (off + 3 * j) (pack6Blk d0 d1 d2 d3)

/-- The assignments of `SABER_un_pack6bit` (lines 93-96) -/
def unpack6Blk (b0 b1 b2 : Nat) : List (BitVec 16) :=
  [ n16 (b0 &&& 0x3f),
    n16 (((b0 >>> 6) &&& 0x03) ||| ((b1 &&& 0x0f) <<< 2)),
    n16 (((b1 &&& 0xff) >>> 4) ||| ((b2 &&& 0x03) <<< 4)),
    n16 (((b2 &&& 0xff) >>> 2)) ]

/-- `SABER_un_pack6bit` (lines 84-99) -/
def SABER_un_pack6bit (bytes : List Byte) (off : Nat) (data : List (BitVec 16)) : CM (List (BitVec 16)) :=
  loop (N / 4) data fun j data => do
    let b0 ← rdN bytes (off + 3 * j + 0)
    let b1 ← rdN bytes (off + 3 * j + 1)
    let b2 ← rdN bytes (off + 3 * j + 2)
    wrs data (4 * j) (unpack6Blk b0 b1 b2)

/-- The assignments of `POLVECp2BS` (lines 113-121) and `POLp2BS` (lines 272-280) -/
def packpBlk (d0 d1 d2 d3 : Nat) : List Byte :=
  [ n8 ((d0 &&& 0xff)),
    n8 (((d0 >>> 8) &&& 0x03) ||| ((d1 &&& 0x3f) <<< 2)),
    n8 (((d1 >>> 6) &&& 0x0f) ||| ((d2 &&& 0x0f) <<< 4)),
    n8 (((d2 >>> 4) &&& 0x3f) ||| ((d3 &&& 0x03) <<< 6)),
    n8 (((d3 >>> 2) &&& 0xff)) ]

/-- The assignments of `BS2POLVECp` (lines 139-142) and `BS2POLp` (lines 160-163) -/
def unpackpBlk (b0 b1 b2 b3 b4 : Nat) : List (BitVec 16) :=
  [ n16 ((b0 &&& 0xff) ||| ((b1 &&& 0x03) <<< 8)),
    n16 (((b1 >>> 2) &&& 0x3f) ||| ((b2 &&& 0x0f) <<< 6)),
    n16 (((b2 >>> 4) &&& 0x0f) ||| ((b3 &&& 0x3f) <<< 4)),
    n16 (((b3 >>> 6) &&& 0x03) ||| ((b4 &&& 0xff) <<< 2)) ]

/-- The assignments of `POLVECq2BS` (lines 180-204) -/
def packqBlk (d0 d1 d2 d3 d4 d5 d6 d7 : Nat) : List Byte :=
  [ n8 ((d0 &&& 0xff)),
    n8 (((d0 >>> 8) &&& 0x1f) ||| ((d1 &&& 0x07) <<< 5)),
    n8 (((d1 >>> 3) &&& 0xff)),
    n8 (((d1 >>> 11) &&& 0x03) ||| ((d2 &&& 0x3f) <<< 2)),
    n8 (((d2 >>> 6) &&& 0x7f) ||| ((d3 &&& 0x01) <<< 7)),
    n8 (((d3 >>> 1) &&& 0xff)),
    n8 (((d3 >>> 9) &&& 0x0f) ||| ((d4 &&& 0x0f) <<< 4)),
    n8 (((d4 >>> 4) &&& 0xff)),
    n8 (((d4 >>> 12) &&& 0x01) ||| ((d5 &&& 0x7f) <<< 1)),
    n8 (((d5 >>> 7) &&& 0x3f) ||| ((d6 &&& 0x03) <<< 6)),
    n8 (((d6 >>> 2) &&& 0xff)),
    n8 (((d6 >>> 10) &&& 0x07) ||| ((d7 &&& 0x1f) <<< 3)),
    n8 (((d7 >>> 5) &&& 0xff)) ]

/-- The assignments of `BS2POLVECq` (lines 223-230), `BS2POLq` (lines 247-254) and `byte_bank2pol_part` (SABER_indcpa.c:40-47) -/
def unpackqBlk (b0 b1 b2 b3 b4 b5 b6 b7 b8 b9 b10 b11 b12 : Nat) : List (BitVec 16) :=
  [ n16 ((b0 &&& 0xff) ||| ((b1 &&& 0x1f) <<< 8)),
    n16 (((b1 >>> 5) &&& 0x07) ||| ((b2 &&& 0xff) <<< 3) ||| ((b3 &&& 0x03) <<< 11)),
    n16 (((b3 >>> 2) &&& 0x3f) ||| ((b4 &&& 0x7f) <<< 6)),
    n16 (((b4 >>> 7) &&& 0x01) ||| ((b5 &&& 0xff) <<< 1) ||| ((b6 &&& 0x0f) <<< 9)),
    n16 (((b6 >>> 4) &&& 0x0f) ||| ((b7 &&& 0xff) <<< 4) ||| ((b8 &&& 0x01) <<< 12)),
    n16 (((b8 >>> 1) &&& 0x7f) ||| ((b9 &&& 0x3f) <<< 7)),
    n16 (((b9 >>> 6) &&& 0x03) ||| ((b10 &&& 0xff) <<< 2) ||| ((b11 &&& 0x07) <<< 10)),
    n16 (((b11 >>> 3) &&& 0x1f) ||| ((b12 &&& 0xff) <<< 5)) ]

/-- The inner loop of `POLVECp2BS` (lines 110-122) and of `POLp2BS` (lines 269-281); `off` is `offset_byte1`. -/
def rowp2BS (bytes : List Byte) (off : Nat) (data : List (BitVec 16)) : CM (List Byte) :=
  loop (N / 4) bytes fun j bytes => do
    let d0 ← rdN data (4 * j + 0)
    let d1 ← rdN data (4 * j + 1)
    let d2 ← rdN data (4 * j + 2)
    let d3 ← rdN data (4 * j + 3)
    wrs bytes (off + 5 * j) (packpBlk d0 d1 d2 d3)

/-- The inner loop of `BS2POLVECp` (lines 136-144) and of `BS2POLp` (lines 157-165); `off` is `offset_byte1`. -/
def rowBS2p (bytes : List Byte) (off : Nat) (data : List (BitVec 16)) : CM (List (BitVec 16)) :=
  loop (N / 4) data fun j data => do
    let b0 ← rdN bytes (off + 5 * j + 0)
    let b1 ← rdN bytes (off + 5 * j + 1)
    let b2 ← rdN bytes (off + 5 * j + 2)
    let b3 ← rdN bytes (off + 5 * j + 3)
    let b4 ← rdN bytes (off + 5 * j + 4)
    wrs data (4 * j) (unpackpBlk b0 b1 b2 b3 b4)

/-- The inner loop of `POLVECq2BS` (lines 177-206); `off` is `offset_byte1`. -/
def rowq2BS (bytes : List Byte) (off : Nat) (data : List (BitVec 16)) : CM (List Byte) :=
  loop (N / 8) bytes fun j bytes => do
    let d0 ← rdN data (8 * j + 0)
    let d1 ← rdN data (8 * j + 1)
    let d2 ← rdN data (8 * j + 2)
    let d3 ← rdN data (8 * j + 3)
    let d4 ← rdN data (8 * j + 4)
    let d5 ← rdN data (8 * j + 5)
    let d6 ← rdN data (8 * j + 6)
    let d7 ← rdN data (8 * j + 7)
    wrs bytes (off + 13 * j) (packqBlk d0 d1 d2 d3 d4 d5 d6 d7)

/-- The inner loop of `BS2POLVECq` (lines 220-231) and of `BS2POLq` (lines 244-255); `off` is `offset_byte1`. -/
def rowBS2q (bytes : List Byte) (off : Nat) (data : List (BitVec 16)) : CM (List (BitVec 16)) :=
  loop (N / 8) data fun j data => do
    let b0 ← rdN bytes (off + 13 * j + 0)
    let b1 ← rdN bytes (off + 13 * j + 1)
    let b2 ← rdN bytes (off + 13 * j + 2)
    let b3 ← rdN bytes (off + 13 * j + 3)
    let b4 ← rdN bytes (off + 13 * j + 4)
    let b5 ← rdN bytes (off + 13 * j + 5)
    let b6 ← rdN bytes (off + 13 * j + 6)
    let b7 ← rdN bytes (off + 13 * j + 7)
    let b8 ← rdN bytes (off + 13 * j + 8)
    let b9 ← rdN bytes (off + 13 * j + 9)
    let b10 ← rdN bytes (off + 13 * j + 10)
    let b11 ← rdN bytes (off + 13 * j + 11)
    let b12 ← rdN bytes (off + 13 * j + 12)
    wrs data (8 * j) (unpackqBlk b0 b1 b2 b3 b4 b5 b6 b7 b8 b9 b10 b11 b12)

/-- `POLVECp2BS` (lines 102-126); `bytes` is `(bytes, off)`. -/
def POLVECp2BS (bytes : List Byte) (off : Nat) (data : List (List (BitVec 16))) : CM (List Byte) :=
  loop K bytes fun i bytes => do
    let row ← rd data i
    rowp2BS bytes (off + i * (N * 10) / 8) row

/-- `BS2POLVECp` (lines 128-148) -/
def BS2POLVECp (bytes : List Byte) (off : Nat) (data : List (List (BitVec 16))) : CM (List (List (BitVec 16))) :=
  loop K data fun i data => do
    let row ← rd data i
    let row ← rowBS2p bytes (off + i * (N * 10) / 8) row
    wr data i row

/-- `BS2POLp` (lines 150-166) -/
def BS2POLp (pol_index : Nat) (bytes : List Byte) (off : Nat) (pol : List (BitVec 16)) : CM (List (BitVec 16)) :=
  rowBS2p bytes (off + pol_index * (N * 10) / 8) pol

/-- `POLVECq2BS` (lines 169-210) -/
def POLVECq2BS (bytes : List Byte) (off : Nat) (data : List (List (BitVec 16))) : CM (List Byte) :=
  loop K bytes fun i bytes => do
    let row ← rd data i
    rowq2BS bytes (off + i * (N * 13) / 8) row

/-- `BS2POLVECq` (lines 212-235) -/
def BS2POLVECq (bytes : List Byte) (off : Nat) (data : List (List (BitVec 16))) : CM (List (List (BitVec 16))) :=
  loop K data fun i data => do
    let row ← rd data i
    let row ← rowBS2q bytes (off + i * (N * 13) / 8) row
    wr data i row

/-- `BS2POLq` (lines 237-258) -/
def BS2POLq (bytes : List Byte) (off : Nat) (data : List (BitVec 16)) : CM (List (BitVec 16)) := rowBS2q bytes off data

/-- `POLp2BS` (lines 261-283) -/
def POLp2BS (bytes : List Byte) (off : Nat) (data : List (BitVec 16)) (pol_vec_index : Nat) : CM (List Byte) :=
  rowp2BS bytes (off + pol_vec_index * (N * 10) / 8) data

end Saber.M0
