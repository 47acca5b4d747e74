import Verif.Model.X4.Vec
/-!
# The shift statements of SaberX4's packing functions

Generated by `tools/x4pack.py` from `Variants/SaberX4_avx2/pack_unpack.c` and `SABER_indcpa.c`, statement by statement.
-/
namespace Saber.X4

/-- The assignments to `avx_bytes` in `POLVECp2BSX4` (pack_unpack.c:660-668); `x k` is `avx_data[SABER_N*i/2+offset_data + k]`. -/
def p2BSX4Blk (x : Nat → V8) : List V8 :=
  [ and8 (x 0) (set1 0xff),
    or8 (and8 (srli8 (x 0) 8) (set1 0x03)) (slli8 (and8 (x 1) (set1 0x3f)) 2),
    or8 (and8 (srli8 (x 1) 6) (set1 0x0f)) (slli8 (and8 (x 2) (set1 0x0f)) 4),
    or8 (and8 (srli8 (x 2) 4) (set1 0x3f)) (slli8 (and8 (x 3) (set1 0x03)) 6),
    and8 (srli8 (x 3) 2) (set1 0xff) ]

/-- The assignments to `avx_bytes` in `POLVECq2BSX4` (pack_unpack.c:874-898); `x k` is `avx_data[SABER_N*i/2+offset_data + k]`. -/
def q2BSX4Blk (x : Nat → V8) : List V8 :=
  [ and8 (x 0) (set1 0xff),
    or8 (and8 (srli8 (x 0) 8) (set1 0x1f)) (slli8 (and8 (x 1) (set1 0x07)) 5),
    and8 (srli8 (x 1) 3) (set1 0xff),
    or8 (and8 (srli8 (x 1) 11) (set1 0x03)) (slli8 (and8 (x 2) (set1 0x3f)) 2),
    or8 (and8 (srli8 (x 2) 6) (set1 0x7f)) (slli8 (and8 (x 3) (set1 0x01)) 7),
    and8 (srli8 (x 3) 1) (set1 0xff),
    or8 (and8 (srli8 (x 3) 9) (set1 0x0f)) (slli8 (and8 (x 4) (set1 0x0f)) 4),
    and8 (srli8 (x 4) 4) (set1 0xff),
    or8 (and8 (srli8 (x 4) 12) (set1 0x01)) (slli8 (and8 (x 5) (set1 0x7f)) 1),
    or8 (and8 (srli8 (x 5) 7) (set1 0x3f)) (slli8 (and8 (x 6) (set1 0x03)) 6),
    and8 (srli8 (x 6) 2) (set1 0xff),
    or8 (and8 (srli8 (x 6) 10) (set1 0x07)) (slli8 (and8 (x 7) (set1 0x1f)) 3),
    and8 (srli8 (x 7) 5) (set1 0xff) ]

/-- The assignments to `avx_data` in `BS2POLVECpX4` (pack_unpack.c:1094-1097); `x k` is `avx_bytes[offset_byte + k]`. -/
def BS2pX4Blk (x : Nat → V8) : List V8 :=
  [ or8 (and8 (x 0) (set1 0xff)) (slli8 (and8 (x 1) (set1 0x03)) 8),
    or8 (and8 (srli8 (x 1) 2) (set1 0x3f)) (slli8 (and8 (x 2) (set1 0x0f)) 6),
    or8 (and8 (srli8 (x 2) 4) (set1 0x0f)) (slli8 (and8 (x 3) (set1 0x3f)) 4),
    or8 (and8 (srli8 (x 3) 6) (set1 0x03)) (slli8 (and8 (x 4) (set1 0xff)) 2) ]

/-- The assignments to `avx_data` in `BS2POLVECqX4` (pack_unpack.c:1235-1242); `x k` is `avx_bytes[offset_byte + k]`. -/
def BS2qX4Blk (x : Nat → V8) : List V8 :=
  [ or8 (and8 (x 0) (set1 0xff)) (slli8 (and8 (x 1) (set1 0x1f)) 8),
    or8 (or8 (and8 (srli8 (x 1) 5) (set1 0x07)) (slli8 (and8 (x 2) (set1 0xff)) 3)) (slli8 (and8 (x 3) (set1 0x03)) 11),
    or8 (and8 (srli8 (x 3) 2) (set1 0x3f)) (slli8 (and8 (x 4) (set1 0x7f)) 6),
    or8 (or8 (and8 (srli8 (x 4) 7) (set1 0x01)) (slli8 (and8 (x 5) (set1 0xff)) 1)) (slli8 (and8 (x 6) (set1 0x0f)) 9),
    or8 (or8 (and8 (srli8 (x 6) 4) (set1 0x0f)) (slli8 (and8 (x 7) (set1 0xff)) 4)) (slli8 (and8 (x 8) (set1 0x01)) 12),
    or8 (and8 (srli8 (x 8) 1) (set1 0x7f)) (slli8 (and8 (x 9) (set1 0x3f)) 7),
    or8 (or8 (and8 (srli8 (x 9) 6) (set1 0x03)) (slli8 (and8 (x 10) (set1 0xff)) 2)) (slli8 (and8 (x 11) (set1 0x07)) 10),
    or8 (and8 (srli8 (x 11) 3) (set1 0x1f)) (slli8 (and8 (x 12) (set1 0xff)) 5) ]

/-- The assignments to `avx_data` in `BS2POLq4x` (SABER_indcpa.c:218-241); `x k` is `avx_bytes[offset_byte + k]`. -/
def BS2POLq4xBlk (x : Nat → V8) : List V8 :=
  [ or8 (and8 (x 0) (set1 0xff)) (slli8 (and8 (x 1) (set1 0x1f)) 8),
    or8 (srli8 (x 1) 5) (or8 (slli8 (x 2) 3) (slli8 (and8 (x 3) (set1 0x03)) 11)),
    or8 (srli8 (x 3) 2) (slli8 (and8 (x 4) (set1 0x7f)) 6),
    or8 (and8 (srli8 (x 4) 7) (set1 0x01)) (or8 (slli8 (x 5) 1) (slli8 (and8 (x 6) (set1 0x0f)) 9)),
    or8 (and8 (srli8 (x 6) 4) (set1 0x0f)) (or8 (slli8 (and8 (x 7) (set1 0xff)) 4) (slli8 (and8 (x 8) (set1 0x01)) 12)),
    or8 (and8 (srli8 (x 8) 1) (set1 0x7f)) (slli8 (and8 (x 9) (set1 0x3f)) 7),
    or8 (and8 (srli8 (x 9) 6) (set1 0x03)) (or8 (slli8 (and8 (x 10) (set1 0xff)) 2) (slli8 (and8 (x 11) (set1 0x07)) 10)),
    or8 (and8 (srli8 (x 11) 3) (set1 0x1f)) (slli8 (and8 (x 12) (set1 0xff)) 5) ]

end Saber.X4
