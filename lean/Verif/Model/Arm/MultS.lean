import Verif.Model.Arm.Machine
/-!
# `Cortex-M4/src/*/m4-tc4kara/mult_toom4_256_16.s`

The instructions of the file, in order.  Functions are cut at labels, branches and calls.
-/
namespace Saber.Arm
/-- mult_toom4_256_16.s:11-130 -/
def schoolbook_16x16_1 : List Ins := [
  .push [.lr], .ldr .r6 .r1 0 .off, .ldr .ip .r1 4 .off, .ldr .r3 .r1 8 .off, .ldr .sl .r1 12 .off, .ldr .r7 .r2 0 .off,
  .ldr .r8 .r2 4 .off, .ldr .r4 .r2 8 .off, .ldr .lr .r2 12 .off, .op2 .smulbb .r9 .r7 .r6 .id, .op2 .smuadx .fp .r7 .r6 .id,
  .op2 .pkhbt .r9 .r9 .fp (.lsl 16), .str .r9 .r0 0 .off, .op2 .smuadx .fp .r7 .ip .id, .op2 .smulbb .r5 .r7 .ip .id,
  .op2 .pkhbt .r9 .r8 .r7 .id, .op3 .smladx .fp .r8 .r6 .fp, .op3 .smlad .r5 .r9 .r6 .r5, .op2 .pkhbt .fp .r5 .fp (.lsl 16),
  .str .fp .r0 4 .off, .op2 .smulbb .r5 .r3 .r7 .id, .op2 .smuadx .fp .r3 .r7 .id, .op3 .smlad .r5 .r9 .ip .r5,
  .op2 .pkhbt .r9 .r4 .r8 .id, .op3 .smlad .r5 .r9 .r6 .r5, .op3 .smladx .fp .r8 .ip .fp, .op3 .smladx .fp .r4 .r6 .fp,
  .op2 .pkhbt .fp .r5 .fp (.lsl 16), .str .fp .r0 8 .off, .op2 .smulbb .r5 .sl .r7 .id, .op2 .smuadx .fp .sl .r7 .id,
  .op3 .smlad .r5 .ip .r9 .r5, .op2 .pkhbt .r9 .r8 .r7 .id, .op3 .smlad .r5 .r3 .r9 .r5, .op2 .pkhbt .r9 .lr .r4 .id,
  .op3 .smlad .r5 .r6 .r9 .r5, .op3 .smladx .fp .r3 .r8 .fp, .op3 .smladx .fp .ip .r4 .fp, .op3 .smladx .fp .r6 .lr .fp,
  .op2 .pkhbt .fp .r5 .fp (.lsl 16), .str .fp .r0 12 .off, .op2 .smultt .r5 .r6 .lr .id, .op2 .smuadx .fp .sl .r8 .id,
  .op3 .smlad .r5 .ip .r9 .r5, .op2 .pkhbt .r9 .r8 .r7 .id, .op3 .smlad .r5 .sl .r9 .r5, .op2 .pkhbt .r9 .r4 .r8 .id,
  .op3 .smlad .r5 .r3 .r9 .r5, .op3 .smladx .fp .r3 .r4 .fp, .op3 .smladx .fp .ip .lr .fp, .op2 .pkhbt .fp .r5 .fp (.lsl 16),
  .str .fp .r0 16 .off, .op2 .smultt .r5 .ip .lr .id, .op2 .smuadx .fp .sl .r4 .id, .op3 .smlad .r5 .sl .r9 .r5,
  .op2 .pkhbt .r9 .lr .r4 .id, .op3 .smlad .r5 .r3 .r9 .r5, .op3 .smladx .fp .r3 .lr .fp, .op2 .pkhbt .fp .r5 .fp (.lsl 16),
  .str .fp .r0 20 .off, .op2 .smuad .r5 .sl .r9 .id, .op2 .smuadx .fp .sl .lr .id, .op3 .smlatt .r5 .r3 .lr .r5,
  .op2 .pkhbt .fp .r5 .fp (.lsl 16), .str .fp .r0 24 .off, .op2 .smultt .fp .sl .lr .id, .op1 (.movt 0) .fp .fp, .str .fp .r0 28 .off,
  .ldr .r7 .r2 16 .off, .ldr .r8 .r2 20 .off, .ldr .r4 .r2 24 .off, .ldr .lr .r2 28 .off, .ldr .r9 .r0 16 .off, .ldr .r5 .r0 20 .off,
  .op1 (.lsr 16) .fp .r9, .op3 .smlabb .r9 .r7 .r6 .r9, .op3 .smladx .fp .r7 .r6 .fp, .op2 .pkhbt .r9 .r9 .fp (.lsl 16),
  .str .r9 .r0 16 .off, .op1 (.lsr 16) .fp .r5, .op3 .smladx .fp .r7 .ip .fp, .op3 .smlabb .r5 .r7 .ip .r5, .op2 .pkhbt .r9 .r8 .r7 .id,
  .op3 .smladx .fp .r8 .r6 .fp, .op3 .smlad .r5 .r9 .r6 .r5, .op2 .pkhbt .fp .r5 .fp (.lsl 16), .ldr .r5 .r0 24 .off,
  .str .fp .r0 20 .off, .op1 (.lsr 16) .fp .r5, .op3 .smlabb .r5 .r3 .r7 .r5, .op3 .smladx .fp .r3 .r7 .fp, .op3 .smlad .r5 .r9 .ip .r5,
  .op2 .pkhbt .r9 .r4 .r8 .id, .op3 .smlad .r5 .r9 .r6 .r5, .op3 .smladx .fp .r8 .ip .fp, .op3 .smladx .fp .r4 .r6 .fp,
  .op2 .pkhbt .fp .r5 .fp (.lsl 16), .ldr .r5 .r0 28 .off, .str .fp .r0 24 .off, .op1 (.lsr 16) .fp .r5, .op3 .smlabb .r5 .sl .r7 .r5,
  .op3 .smladx .fp .sl .r7 .fp, .op3 .smlad .r5 .ip .r9 .r5, .op2 .pkhbt .r9 .r8 .r7 .id, .op3 .smlad .r5 .r3 .r9 .r5,
  .op2 .pkhbt .r9 .lr .r4 .id, .op3 .smlad .r5 .r6 .r9 .r5, .op3 .smladx .fp .r3 .r8 .fp, .op3 .smladx .fp .ip .r4 .fp,
  .op3 .smladx .fp .r6 .lr .fp, .op2 .pkhbt .fp .r5 .fp (.lsl 16), .str .fp .r0 28 .off, .op2 .smultt .r5 .r6 .lr .id,
  .op2 .smuadx .fp .sl .r8 .id, .op3 .smlad .r5 .ip .r9 .r5, .op2 .pkhbt .r9 .r8 .r7 .id, .op3 .smlad .r5 .sl .r9 .r5,
  .op2 .pkhbt .r9 .r4 .r8 .id, .op3 .smlad .r5 .r3 .r9 .r5, .op3 .smladx .fp .r3 .r4 .fp]

/-- mult_toom4_256_16.s:131-250 -/
def schoolbook_16x16_2 : List Ins := [
  .op3 .smladx .fp .ip .lr .fp, .op2 .pkhbt .fp .r5 .fp (.lsl 16), .str .fp .r0 32 .off, .op2 .smultt .r5 .ip .lr .id,
  .op2 .smuadx .fp .sl .r4 .id, .op3 .smlad .r5 .sl .r9 .r5, .op2 .pkhbt .r9 .lr .r4 .id, .op3 .smlad .r5 .r3 .r9 .r5,
  .op3 .smladx .fp .r3 .lr .fp, .op2 .pkhbt .fp .r5 .fp (.lsl 16), .str .fp .r0 36 .off, .op2 .smuad .r5 .sl .r9 .id,
  .op2 .smuadx .fp .sl .lr .id, .op3 .smlatt .r5 .r3 .lr .r5, .op2 .pkhbt .fp .r5 .fp (.lsl 16), .str .fp .r0 40 .off,
  .op2 .smultt .fp .sl .lr .id, .op1 (.movt 0) .fp .fp, .str .fp .r0 44 .off, .ldr .r6 .r1 16 .off, .ldr .ip .r1 20 .off,
  .ldr .r3 .r1 24 .off, .ldr .sl .r1 28 .off, .ldr .r9 .r0 32 .off, .ldr .r5 .r0 36 .off, .op1 (.lsr 16) .fp .r9,
  .op3 .smlabb .r9 .r7 .r6 .r9, .op3 .smladx .fp .r7 .r6 .fp, .op2 .pkhbt .r9 .r9 .fp (.lsl 16), .str .r9 .r0 32 .off,
  .op1 (.lsr 16) .fp .r5, .op3 .smladx .fp .r7 .ip .fp, .op3 .smlabb .r5 .r7 .ip .r5, .op2 .pkhbt .r9 .r8 .r7 .id,
  .op3 .smladx .fp .r8 .r6 .fp, .op3 .smlad .r5 .r9 .r6 .r5, .op2 .pkhbt .fp .r5 .fp (.lsl 16), .ldr .r5 .r0 40 .off,
  .str .fp .r0 36 .off, .op1 (.lsr 16) .fp .r5, .op3 .smlabb .r5 .r3 .r7 .r5, .op3 .smladx .fp .r3 .r7 .fp, .op3 .smlad .r5 .r9 .ip .r5,
  .op2 .pkhbt .r9 .r4 .r8 .id, .op3 .smlad .r5 .r9 .r6 .r5, .op3 .smladx .fp .r8 .ip .fp, .op3 .smladx .fp .r4 .r6 .fp,
  .op2 .pkhbt .fp .r5 .fp (.lsl 16), .ldr .r5 .r0 44 .off, .str .fp .r0 40 .off, .op1 (.lsr 16) .fp .r5, .op3 .smlabb .r5 .sl .r7 .r5,
  .op3 .smladx .fp .sl .r7 .fp, .op3 .smlad .r5 .ip .r9 .r5, .op2 .pkhbt .r9 .r8 .r7 .id, .op3 .smlad .r5 .r3 .r9 .r5,
  .op2 .pkhbt .r9 .lr .r4 .id, .op3 .smlad .r5 .r6 .r9 .r5, .op3 .smladx .fp .r3 .r8 .fp, .op3 .smladx .fp .ip .r4 .fp,
  .op3 .smladx .fp .r6 .lr .fp, .op2 .pkhbt .fp .r5 .fp (.lsl 16), .str .fp .r0 44 .off, .op2 .smultt .r5 .r6 .lr .id,
  .op2 .smuadx .fp .sl .r8 .id, .op3 .smlad .r5 .ip .r9 .r5, .op2 .pkhbt .r9 .r8 .r7 .id, .op3 .smlad .r5 .sl .r9 .r5,
  .op2 .pkhbt .r9 .r4 .r8 .id, .op3 .smlad .r5 .r3 .r9 .r5, .op3 .smladx .fp .r3 .r4 .fp, .op3 .smladx .fp .ip .lr .fp,
  .op2 .pkhbt .fp .r5 .fp (.lsl 16), .str .fp .r0 48 .off, .op2 .smultt .r5 .ip .lr .id, .op2 .smuadx .fp .sl .r4 .id,
  .op3 .smlad .r5 .sl .r9 .r5, .op2 .pkhbt .r9 .lr .r4 .id, .op3 .smlad .r5 .r3 .r9 .r5, .op3 .smladx .fp .r3 .lr .fp,
  .op2 .pkhbt .fp .r5 .fp (.lsl 16), .str .fp .r0 52 .off, .op2 .smuad .r5 .sl .r9 .id, .op2 .smuadx .fp .sl .lr .id,
  .op3 .smlatt .r5 .r3 .lr .r5, .op2 .pkhbt .fp .r5 .fp (.lsl 16), .str .fp .r0 56 .off, .op2 .smultt .fp .sl .lr .id,
  .strh .fp .r0 60 .off, .ldr .r7 .r2 0 .off, .ldr .r8 .r2 4 .off, .ldr .r4 .r2 8 .off, .ldr .lr .r2 12 .off, .ldr .r9 .r0 16 .off,
  .ldr .r5 .r0 20 .off, .op1 (.lsr 16) .fp .r9, .op3 .smlabb .r9 .r7 .r6 .r9, .op3 .smladx .fp .r7 .r6 .fp,
  .op2 .pkhbt .r9 .r9 .fp (.lsl 16), .str .r9 .r0 16 .off, .op1 (.lsr 16) .fp .r5, .op3 .smladx .fp .r7 .ip .fp,
  .op3 .smlabb .r5 .r7 .ip .r5, .op2 .pkhbt .r9 .r8 .r7 .id, .op3 .smladx .fp .r8 .r6 .fp, .op3 .smlad .r5 .r9 .r6 .r5,
  .op2 .pkhbt .fp .r5 .fp (.lsl 16), .ldr .r5 .r0 24 .off, .str .fp .r0 20 .off, .op1 (.lsr 16) .fp .r5, .op3 .smlabb .r5 .r3 .r7 .r5,
  .op3 .smladx .fp .r3 .r7 .fp, .op3 .smlad .r5 .r9 .ip .r5, .op2 .pkhbt .r9 .r4 .r8 .id, .op3 .smlad .r5 .r9 .r6 .r5,
  .op3 .smladx .fp .r8 .ip .fp, .op3 .smladx .fp .r4 .r6 .fp, .op2 .pkhbt .fp .r5 .fp (.lsl 16), .ldr .r5 .r0 28 .off,
  .str .fp .r0 24 .off]

/-- mult_toom4_256_16.s:251-298 -/
def schoolbook_16x16_3 : List Ins := [
  .op1 (.lsr 16) .fp .r5, .op3 .smlabb .r5 .sl .r7 .r5, .op3 .smladx .fp .sl .r7 .fp, .op3 .smlad .r5 .ip .r9 .r5,
  .op2 .pkhbt .r9 .r8 .r7 .id, .op3 .smlad .r5 .r3 .r9 .r5, .op2 .pkhbt .r9 .lr .r4 .id, .op3 .smlad .r5 .r6 .r9 .r5,
  .op3 .smladx .fp .r3 .r8 .fp, .op3 .smladx .fp .ip .r4 .fp, .op3 .smladx .fp .r6 .lr .fp, .op2 .pkhbt .fp .r5 .fp (.lsl 16),
  .ldr .r5 .r0 32 .off, .str .fp .r0 28 .off, .op1 (.lsr 16) .fp .r5, .op3 .smlatt .r5 .r6 .lr .r5, .op3 .smladx .fp .sl .r8 .fp,
  .op3 .smlad .r5 .ip .r9 .r5, .op2 .pkhbt .r9 .r8 .r7 .id, .op3 .smlad .r5 .sl .r9 .r5, .op2 .pkhbt .r9 .r4 .r8 .id,
  .op3 .smlad .r5 .r3 .r9 .r5, .op3 .smladx .fp .r3 .r4 .fp, .op3 .smladx .fp .ip .lr .fp, .op2 .pkhbt .fp .r5 .fp (.lsl 16),
  .ldr .r5 .r0 36 .off, .str .fp .r0 32 .off, .op1 (.lsr 16) .fp .r5, .op3 .smlatt .r5 .ip .lr .r5, .op3 .smladx .fp .sl .r4 .fp,
  .op3 .smlad .r5 .sl .r9 .r5, .op2 .pkhbt .r9 .lr .r4 .id, .op3 .smlad .r5 .r3 .r9 .r5, .op3 .smladx .fp .r3 .lr .fp,
  .op2 .pkhbt .fp .r5 .fp (.lsl 16), .ldr .r5 .r0 40 .off, .str .fp .r0 36 .off, .op1 (.lsr 16) .fp .r5, .op3 .smlad .r5 .sl .r9 .r5,
  .op3 .smladx .fp .sl .lr .fp, .op3 .smlatt .r5 .r3 .lr .r5, .op2 .pkhbt .fp .r5 .fp (.lsl 16), .ldrh .r5 .r0 44 .off,
  .str .fp .r0 40 .off, .op3 .smlatt .fp .sl .lr .r5, .strh .fp .r0 44 .off, .ldr .lr .sp 4 .post, .bx .lr]

/-- `schoolbook_16x16` (mult_toom4_256_16.s:10-298) -/
def schoolbook_16x16 : List Stmt := [
  .ins schoolbook_16x16_1, .ins schoolbook_16x16_2, .ins schoolbook_16x16_3]

/-- mult_toom4_256_16.s:303-303 -/
def karatsuba_64x64_1 : List Ins := [
  .push [.lr]]

/-- mult_toom4_256_16.s:305-310 -/
def karatsuba_64x64_2 : List Ins := [
  .push [.r1], .push [.r2], .push [.r0], .addi .r1 .r1 32, .addi .r2 .r2 32, .addi .r0 .r0 64]

/-- mult_toom4_256_16.s:312-381 -/
def karatsuba_64x64_3 : List Ins := [
  .addi .r1 .r1 (-32), .addi .r2 .r2 (-32), .addi .sp .sp (-128), .ldr .r3 .r1 0 .off, .ldr .r4 .r1 32 .off, .ldr .r5 .r1 4 .off,
  .ldr .r6 .r1 36 .off, .ldr .r7 .r1 8 .off, .ldr .r8 .r1 40 .off, .ldr .r9 .r1 12 .off, .ldr .sl .r1 44 .off, .ldr .fp .r1 16 .off,
  .ldr .ip .r1 48 .off, .ldr .r0 .r1 20 .off, .ldr .lr .r1 52 .off, .op2 .uadd16 .r3 .r3 .r4 .id, .op2 .uadd16 .r5 .r5 .r6 .id,
  .op2 .uadd16 .r7 .r7 .r8 .id, .op2 .uadd16 .r9 .r9 .sl .id, .op2 .uadd16 .fp .fp .ip .id, .op2 .uadd16 .r0 .r0 .lr .id,
  .str .r3 .sp 0 .off, .str .r5 .sp 4 .off, .str .r7 .sp 8 .off, .str .r9 .sp 12 .off, .str .fp .sp 16 .off, .str .r0 .sp 20 .off,
  .ldr .r3 .r1 24 .off, .ldr .r4 .r1 56 .off, .ldr .r5 .r1 28 .off, .ldr .r6 .r1 60 .off, .op2 .uadd16 .r3 .r3 .r4 .id,
  .op2 .uadd16 .r5 .r5 .r6 .id, .str .r3 .sp 24 .off, .str .r5 .sp 28 .off, .op1 .id .r1 .sp, .ldr .r3 .r2 0 .off, .ldr .r4 .r2 32 .off,
  .ldr .r5 .r2 4 .off, .ldr .r6 .r2 36 .off, .ldr .r7 .r2 8 .off, .ldr .r8 .r2 40 .off, .ldr .r9 .r2 12 .off, .ldr .sl .r2 44 .off,
  .ldr .fp .r2 16 .off, .ldr .ip .r2 48 .off, .ldr .r0 .r2 20 .off, .ldr .lr .r2 52 .off, .op2 .uadd16 .r3 .r3 .r4 .id,
  .op2 .uadd16 .r5 .r5 .r6 .id, .op2 .uadd16 .r7 .r7 .r8 .id, .op2 .uadd16 .r9 .r9 .sl .id, .op2 .uadd16 .fp .fp .ip .id,
  .op2 .uadd16 .r0 .r0 .lr .id, .str .r3 .sp 32 .off, .str .r5 .sp 36 .off, .str .r7 .sp 40 .off, .str .r9 .sp 44 .off,
  .str .fp .sp 48 .off, .str .r0 .sp 52 .off, .ldr .r3 .r2 24 .off, .ldr .r4 .r2 56 .off, .ldr .r5 .r2 28 .off, .ldr .r6 .r2 60 .off,
  .op2 .uadd16 .r3 .r3 .r4 .id, .op2 .uadd16 .r5 .r5 .r6 .id, .str .r3 .sp 56 .off, .str .r5 .sp 60 .off, .addi .r2 .sp 32,
  .addi .r0 .sp 64]

/-- mult_toom4_256_16.s:383-502 -/
def karatsuba_64x64_4 : List Ins := [
  .op1 .id .r3 .r0, .ldr .r0 .sp 128 .off, .ldr .r5 .r3 0 .off, .ldr .r6 .r3 32 .off, .ldr .r7 .r0 0 .off, .ldr .r8 .r0 32 .off,
  .ldr .r9 .r0 64 .off, .ldr .sl .r0 96 .off, .op2 .usub16 .fp .r5 .r7 .id, .op2 .usub16 .r8 .r8 .r9 .id, .op2 .uadd16 .fp .fp .r8 .id,
  .str .fp .r0 32 .off, .op2 .usub16 .r6 .r6 .r8 .id, .op2 .usub16 .r6 .r6 .sl .id, .str .r6 .r0 64 .off, .ldr .r5 .r3 4 .off,
  .ldr .r6 .r3 36 .off, .ldr .r7 .r0 4 .off, .ldr .r8 .r0 36 .off, .ldr .r9 .r0 68 .off, .ldr .sl .r0 100 .off,
  .op2 .usub16 .fp .r5 .r7 .id, .op2 .usub16 .r8 .r8 .r9 .id, .op2 .uadd16 .fp .fp .r8 .id, .str .fp .r0 36 .off,
  .op2 .usub16 .r6 .r6 .r8 .id, .op2 .usub16 .r6 .r6 .sl .id, .str .r6 .r0 68 .off, .ldr .r5 .r3 8 .off, .ldr .r6 .r3 40 .off,
  .ldr .r7 .r0 8 .off, .ldr .r8 .r0 40 .off, .ldr .r9 .r0 72 .off, .ldr .sl .r0 104 .off, .op2 .usub16 .fp .r5 .r7 .id,
  .op2 .usub16 .r8 .r8 .r9 .id, .op2 .uadd16 .fp .fp .r8 .id, .str .fp .r0 40 .off, .op2 .usub16 .r6 .r6 .r8 .id,
  .op2 .usub16 .r6 .r6 .sl .id, .str .r6 .r0 72 .off, .ldr .r5 .r3 12 .off, .ldr .r6 .r3 44 .off, .ldr .r7 .r0 12 .off,
  .ldr .r8 .r0 44 .off, .ldr .r9 .r0 76 .off, .ldr .sl .r0 108 .off, .op2 .usub16 .fp .r5 .r7 .id, .op2 .usub16 .r8 .r8 .r9 .id,
  .op2 .uadd16 .fp .fp .r8 .id, .str .fp .r0 44 .off, .op2 .usub16 .r6 .r6 .r8 .id, .op2 .usub16 .r6 .r6 .sl .id, .str .r6 .r0 76 .off,
  .ldr .r5 .r3 16 .off, .ldr .r6 .r3 48 .off, .ldr .r7 .r0 16 .off, .ldr .r8 .r0 48 .off, .ldr .r9 .r0 80 .off, .ldr .sl .r0 112 .off,
  .op2 .usub16 .fp .r5 .r7 .id, .op2 .usub16 .r8 .r8 .r9 .id, .op2 .uadd16 .fp .fp .r8 .id, .str .fp .r0 48 .off,
  .op2 .usub16 .r6 .r6 .r8 .id, .op2 .usub16 .r6 .r6 .sl .id, .str .r6 .r0 80 .off, .ldr .r5 .r3 20 .off, .ldr .r6 .r3 52 .off,
  .ldr .r7 .r0 20 .off, .ldr .r8 .r0 52 .off, .ldr .r9 .r0 84 .off, .ldr .sl .r0 116 .off, .op2 .usub16 .fp .r5 .r7 .id,
  .op2 .usub16 .r8 .r8 .r9 .id, .op2 .uadd16 .fp .fp .r8 .id, .str .fp .r0 52 .off, .op2 .usub16 .r6 .r6 .r8 .id,
  .op2 .usub16 .r6 .r6 .sl .id, .str .r6 .r0 84 .off, .ldr .r5 .r3 24 .off, .ldr .r6 .r3 56 .off, .ldr .r7 .r0 24 .off,
  .ldr .r8 .r0 56 .off, .ldr .r9 .r0 88 .off, .ldr .sl .r0 120 .off, .op2 .usub16 .fp .r5 .r7 .id, .op2 .usub16 .r8 .r8 .r9 .id,
  .op2 .uadd16 .fp .fp .r8 .id, .str .fp .r0 56 .off, .op2 .usub16 .r6 .r6 .r8 .id, .op2 .usub16 .r6 .r6 .sl .id, .str .r6 .r0 88 .off,
  .ldrh .r5 .r3 28 .off, .ldrh .r6 .r3 60 .off, .ldrh .r7 .r0 28 .off, .ldrh .r8 .r0 60 .off, .ldrh .r9 .r0 92 .off,
  .ldrh .sl .r0 124 .off, .op2 .sub .fp .r5 .r7 .id, .op2 .sub .r8 .r8 .r9 .id, .op2 .add .fp .fp .r8 .id, .strh .fp .r0 60 .off,
  .op2 .sub .r6 .r6 .r8 .id, .op2 .sub .r6 .r6 .sl .id, .strh .r6 .r0 92 .off, .ldrh .r5 .r3 30 .off, .ldrh .r7 .r0 30 .off,
  .ldrh .r9 .r0 94 .off, .op2 .sub .fp .r5 .r7 .id, .op2 .sub .fp .fp .r9 .id, .strh .fp .r0 62 .off, .addi .sp .sp 132, .pop [.r2],
  .pop [.r1], .push [.r1], .push [.r2], .push [.r0], .addi .r1 .r1 64, .addi .r2 .r2 64]

/-- mult_toom4_256_16.s:503-503 -/
def karatsuba_64x64_5 : List Ins := [
  .addi .r0 .r0 128]

/-- mult_toom4_256_16.s:505-510 -/
def karatsuba_64x64_6 : List Ins := [
  .push [.r1], .push [.r2], .push [.r0], .addi .r1 .r1 32, .addi .r2 .r2 32, .addi .r0 .r0 64]

/-- mult_toom4_256_16.s:512-581 -/
def karatsuba_64x64_7 : List Ins := [
  .addi .r1 .r1 (-32), .addi .r2 .r2 (-32), .addi .sp .sp (-128), .ldr .r3 .r1 0 .off, .ldr .r4 .r1 32 .off, .ldr .r5 .r1 4 .off,
  .ldr .r6 .r1 36 .off, .ldr .r7 .r1 8 .off, .ldr .r8 .r1 40 .off, .ldr .r9 .r1 12 .off, .ldr .sl .r1 44 .off, .ldr .fp .r1 16 .off,
  .ldr .ip .r1 48 .off, .ldr .r0 .r1 20 .off, .ldr .lr .r1 52 .off, .op2 .uadd16 .r3 .r3 .r4 .id, .op2 .uadd16 .r5 .r5 .r6 .id,
  .op2 .uadd16 .r7 .r7 .r8 .id, .op2 .uadd16 .r9 .r9 .sl .id, .op2 .uadd16 .fp .fp .ip .id, .op2 .uadd16 .r0 .r0 .lr .id,
  .str .r3 .sp 0 .off, .str .r5 .sp 4 .off, .str .r7 .sp 8 .off, .str .r9 .sp 12 .off, .str .fp .sp 16 .off, .str .r0 .sp 20 .off,
  .ldr .r3 .r1 24 .off, .ldr .r4 .r1 56 .off, .ldr .r5 .r1 28 .off, .ldr .r6 .r1 60 .off, .op2 .uadd16 .r3 .r3 .r4 .id,
  .op2 .uadd16 .r5 .r5 .r6 .id, .str .r3 .sp 24 .off, .str .r5 .sp 28 .off, .op1 .id .r1 .sp, .ldr .r3 .r2 0 .off, .ldr .r4 .r2 32 .off,
  .ldr .r5 .r2 4 .off, .ldr .r6 .r2 36 .off, .ldr .r7 .r2 8 .off, .ldr .r8 .r2 40 .off, .ldr .r9 .r2 12 .off, .ldr .sl .r2 44 .off,
  .ldr .fp .r2 16 .off, .ldr .ip .r2 48 .off, .ldr .r0 .r2 20 .off, .ldr .lr .r2 52 .off, .op2 .uadd16 .r3 .r3 .r4 .id,
  .op2 .uadd16 .r5 .r5 .r6 .id, .op2 .uadd16 .r7 .r7 .r8 .id, .op2 .uadd16 .r9 .r9 .sl .id, .op2 .uadd16 .fp .fp .ip .id,
  .op2 .uadd16 .r0 .r0 .lr .id, .str .r3 .sp 32 .off, .str .r5 .sp 36 .off, .str .r7 .sp 40 .off, .str .r9 .sp 44 .off,
  .str .fp .sp 48 .off, .str .r0 .sp 52 .off, .ldr .r3 .r2 24 .off, .ldr .r4 .r2 56 .off, .ldr .r5 .r2 28 .off, .ldr .r6 .r2 60 .off,
  .op2 .uadd16 .r3 .r3 .r4 .id, .op2 .uadd16 .r5 .r5 .r6 .id, .str .r3 .sp 56 .off, .str .r5 .sp 60 .off, .addi .r2 .sp 32,
  .addi .r0 .sp 64]

/-- mult_toom4_256_16.s:583-702 -/
def karatsuba_64x64_8 : List Ins := [
  .op1 .id .r3 .r0, .ldr .r0 .sp 128 .off, .ldr .r5 .r3 0 .off, .ldr .r6 .r3 32 .off, .ldr .r7 .r0 0 .off, .ldr .r8 .r0 32 .off,
  .ldr .r9 .r0 64 .off, .ldr .sl .r0 96 .off, .op2 .usub16 .fp .r5 .r7 .id, .op2 .usub16 .r8 .r8 .r9 .id, .op2 .uadd16 .fp .fp .r8 .id,
  .str .fp .r0 32 .off, .op2 .usub16 .r6 .r6 .r8 .id, .op2 .usub16 .r6 .r6 .sl .id, .str .r6 .r0 64 .off, .ldr .r5 .r3 4 .off,
  .ldr .r6 .r3 36 .off, .ldr .r7 .r0 4 .off, .ldr .r8 .r0 36 .off, .ldr .r9 .r0 68 .off, .ldr .sl .r0 100 .off,
  .op2 .usub16 .fp .r5 .r7 .id, .op2 .usub16 .r8 .r8 .r9 .id, .op2 .uadd16 .fp .fp .r8 .id, .str .fp .r0 36 .off,
  .op2 .usub16 .r6 .r6 .r8 .id, .op2 .usub16 .r6 .r6 .sl .id, .str .r6 .r0 68 .off, .ldr .r5 .r3 8 .off, .ldr .r6 .r3 40 .off,
  .ldr .r7 .r0 8 .off, .ldr .r8 .r0 40 .off, .ldr .r9 .r0 72 .off, .ldr .sl .r0 104 .off, .op2 .usub16 .fp .r5 .r7 .id,
  .op2 .usub16 .r8 .r8 .r9 .id, .op2 .uadd16 .fp .fp .r8 .id, .str .fp .r0 40 .off, .op2 .usub16 .r6 .r6 .r8 .id,
  .op2 .usub16 .r6 .r6 .sl .id, .str .r6 .r0 72 .off, .ldr .r5 .r3 12 .off, .ldr .r6 .r3 44 .off, .ldr .r7 .r0 12 .off,
  .ldr .r8 .r0 44 .off, .ldr .r9 .r0 76 .off, .ldr .sl .r0 108 .off, .op2 .usub16 .fp .r5 .r7 .id, .op2 .usub16 .r8 .r8 .r9 .id,
  .op2 .uadd16 .fp .fp .r8 .id, .str .fp .r0 44 .off, .op2 .usub16 .r6 .r6 .r8 .id, .op2 .usub16 .r6 .r6 .sl .id, .str .r6 .r0 76 .off,
  .ldr .r5 .r3 16 .off, .ldr .r6 .r3 48 .off, .ldr .r7 .r0 16 .off, .ldr .r8 .r0 48 .off, .ldr .r9 .r0 80 .off, .ldr .sl .r0 112 .off,
  .op2 .usub16 .fp .r5 .r7 .id, .op2 .usub16 .r8 .r8 .r9 .id, .op2 .uadd16 .fp .fp .r8 .id, .str .fp .r0 48 .off,
  .op2 .usub16 .r6 .r6 .r8 .id, .op2 .usub16 .r6 .r6 .sl .id, .str .r6 .r0 80 .off, .ldr .r5 .r3 20 .off, .ldr .r6 .r3 52 .off,
  .ldr .r7 .r0 20 .off, .ldr .r8 .r0 52 .off, .ldr .r9 .r0 84 .off, .ldr .sl .r0 116 .off, .op2 .usub16 .fp .r5 .r7 .id,
  .op2 .usub16 .r8 .r8 .r9 .id, .op2 .uadd16 .fp .fp .r8 .id, .str .fp .r0 52 .off, .op2 .usub16 .r6 .r6 .r8 .id,
  .op2 .usub16 .r6 .r6 .sl .id, .str .r6 .r0 84 .off, .ldr .r5 .r3 24 .off, .ldr .r6 .r3 56 .off, .ldr .r7 .r0 24 .off,
  .ldr .r8 .r0 56 .off, .ldr .r9 .r0 88 .off, .ldr .sl .r0 120 .off, .op2 .usub16 .fp .r5 .r7 .id, .op2 .usub16 .r8 .r8 .r9 .id,
  .op2 .uadd16 .fp .fp .r8 .id, .str .fp .r0 56 .off, .op2 .usub16 .r6 .r6 .r8 .id, .op2 .usub16 .r6 .r6 .sl .id, .str .r6 .r0 88 .off,
  .ldrh .r5 .r3 28 .off, .ldrh .r6 .r3 60 .off, .ldrh .r7 .r0 28 .off, .ldrh .r8 .r0 60 .off, .ldrh .r9 .r0 92 .off,
  .ldrh .sl .r0 124 .off, .op2 .sub .fp .r5 .r7 .id, .op2 .sub .r8 .r8 .r9 .id, .op2 .add .fp .fp .r8 .id, .strh .fp .r0 60 .off,
  .op2 .sub .r6 .r6 .r8 .id, .op2 .sub .r6 .r6 .sl .id, .strh .r6 .r0 92 .off, .ldrh .r5 .r3 30 .off, .ldrh .r7 .r0 30 .off,
  .ldrh .r9 .r0 94 .off, .op2 .sub .fp .r5 .r7 .id, .op2 .sub .fp .fp .r9 .id, .strh .fp .r0 62 .off, .addi .sp .sp 132, .pop [.r2],
  .pop [.r1], .addi .r1 .r1 (-64), .addi .r2 .r2 (-64), .addi .sp .sp (-256), .ldr .r3 .r1 0 .off, .ldr .r4 .r1 64 .off]

/-- mult_toom4_256_16.s:703-822 -/
def karatsuba_64x64_9 : List Ins := [
  .ldr .r5 .r1 4 .off, .ldr .r6 .r1 68 .off, .ldr .r7 .r1 8 .off, .ldr .r8 .r1 72 .off, .ldr .r9 .r1 12 .off, .ldr .sl .r1 76 .off,
  .ldr .fp .r1 16 .off, .ldr .ip .r1 80 .off, .ldr .r0 .r1 20 .off, .ldr .lr .r1 84 .off, .op2 .uadd16 .r3 .r3 .r4 .id,
  .op2 .uadd16 .r5 .r5 .r6 .id, .op2 .uadd16 .r7 .r7 .r8 .id, .op2 .uadd16 .r9 .r9 .sl .id, .op2 .uadd16 .fp .fp .ip .id,
  .op2 .uadd16 .r0 .r0 .lr .id, .str .r3 .sp 0 .off, .str .r5 .sp 4 .off, .str .r7 .sp 8 .off, .str .r9 .sp 12 .off,
  .str .fp .sp 16 .off, .str .r0 .sp 20 .off, .ldr .r3 .r1 24 .off, .ldr .r4 .r1 88 .off, .ldr .r5 .r1 28 .off, .ldr .r6 .r1 92 .off,
  .ldr .r7 .r1 32 .off, .ldr .r8 .r1 96 .off, .ldr .r9 .r1 36 .off, .ldr .sl .r1 100 .off, .ldr .fp .r1 40 .off, .ldr .ip .r1 104 .off,
  .ldr .r0 .r1 44 .off, .ldr .lr .r1 108 .off, .op2 .uadd16 .r3 .r3 .r4 .id, .op2 .uadd16 .r5 .r5 .r6 .id, .op2 .uadd16 .r7 .r7 .r8 .id,
  .op2 .uadd16 .r9 .r9 .sl .id, .op2 .uadd16 .fp .fp .ip .id, .op2 .uadd16 .r0 .r0 .lr .id, .str .r3 .sp 24 .off, .str .r5 .sp 28 .off,
  .str .r7 .sp 32 .off, .str .r9 .sp 36 .off, .str .fp .sp 40 .off, .str .r0 .sp 44 .off, .ldr .r3 .r1 48 .off, .ldr .r4 .r1 112 .off,
  .ldr .r5 .r1 52 .off, .ldr .r6 .r1 116 .off, .ldr .r7 .r1 56 .off, .ldr .r8 .r1 120 .off, .ldr .r9 .r1 60 .off, .ldr .sl .r1 124 .off,
  .op2 .uadd16 .r3 .r3 .r4 .id, .op2 .uadd16 .r5 .r5 .r6 .id, .op2 .uadd16 .r7 .r7 .r8 .id, .op2 .uadd16 .r9 .r9 .sl .id,
  .str .r3 .sp 48 .off, .str .r5 .sp 52 .off, .str .r7 .sp 56 .off, .str .r9 .sp 60 .off, .op1 .id .r1 .sp, .ldr .r3 .r2 0 .off,
  .ldr .r4 .r2 64 .off, .ldr .r5 .r2 4 .off, .ldr .r6 .r2 68 .off, .ldr .r7 .r2 8 .off, .ldr .r8 .r2 72 .off, .ldr .r9 .r2 12 .off,
  .ldr .sl .r2 76 .off, .ldr .fp .r2 16 .off, .ldr .ip .r2 80 .off, .ldr .r0 .r2 20 .off, .ldr .lr .r2 84 .off,
  .op2 .uadd16 .r3 .r3 .r4 .id, .op2 .uadd16 .r5 .r5 .r6 .id, .op2 .uadd16 .r7 .r7 .r8 .id, .op2 .uadd16 .r9 .r9 .sl .id,
  .op2 .uadd16 .fp .fp .ip .id, .op2 .uadd16 .r0 .r0 .lr .id, .str .r3 .sp 64 .off, .str .r5 .sp 68 .off, .str .r7 .sp 72 .off,
  .str .r9 .sp 76 .off, .str .fp .sp 80 .off, .str .r0 .sp 84 .off, .ldr .r3 .r2 24 .off, .ldr .r4 .r2 88 .off, .ldr .r5 .r2 28 .off,
  .ldr .r6 .r2 92 .off, .ldr .r7 .r2 32 .off, .ldr .r8 .r2 96 .off, .ldr .r9 .r2 36 .off, .ldr .sl .r2 100 .off, .ldr .fp .r2 40 .off,
  .ldr .ip .r2 104 .off, .ldr .r0 .r2 44 .off, .ldr .lr .r2 108 .off, .op2 .uadd16 .r3 .r3 .r4 .id, .op2 .uadd16 .r5 .r5 .r6 .id,
  .op2 .uadd16 .r7 .r7 .r8 .id, .op2 .uadd16 .r9 .r9 .sl .id, .op2 .uadd16 .fp .fp .ip .id, .op2 .uadd16 .r0 .r0 .lr .id,
  .str .r3 .sp 88 .off, .str .r5 .sp 92 .off, .str .r7 .sp 96 .off, .str .r9 .sp 100 .off, .str .fp .sp 104 .off, .str .r0 .sp 108 .off,
  .ldr .r3 .r2 48 .off, .ldr .r4 .r2 112 .off, .ldr .r5 .r2 52 .off, .ldr .r6 .r2 116 .off, .ldr .r7 .r2 56 .off, .ldr .r8 .r2 120 .off,
  .ldr .r9 .r2 60 .off, .ldr .sl .r2 124 .off, .op2 .uadd16 .r3 .r3 .r4 .id]

/-- mult_toom4_256_16.s:823-831 -/
def karatsuba_64x64_10 : List Ins := [
  .op2 .uadd16 .r5 .r5 .r6 .id, .op2 .uadd16 .r7 .r7 .r8 .id, .op2 .uadd16 .r9 .r9 .sl .id, .str .r3 .sp 112 .off, .str .r5 .sp 116 .off,
  .str .r7 .sp 120 .off, .str .r9 .sp 124 .off, .addi .r2 .sp 64, .addi .r0 .sp 128]

/-- mult_toom4_256_16.s:833-838 -/
def karatsuba_64x64_11 : List Ins := [
  .push [.r1], .push [.r2], .push [.r0], .addi .r1 .r1 32, .addi .r2 .r2 32, .addi .r0 .r0 64]

/-- mult_toom4_256_16.s:840-909 -/
def karatsuba_64x64_12 : List Ins := [
  .addi .r1 .r1 (-32), .addi .r2 .r2 (-32), .addi .sp .sp (-128), .ldr .r3 .r1 0 .off, .ldr .r4 .r1 32 .off, .ldr .r5 .r1 4 .off,
  .ldr .r6 .r1 36 .off, .ldr .r7 .r1 8 .off, .ldr .r8 .r1 40 .off, .ldr .r9 .r1 12 .off, .ldr .sl .r1 44 .off, .ldr .fp .r1 16 .off,
  .ldr .ip .r1 48 .off, .ldr .r0 .r1 20 .off, .ldr .lr .r1 52 .off, .op2 .uadd16 .r3 .r3 .r4 .id, .op2 .uadd16 .r5 .r5 .r6 .id,
  .op2 .uadd16 .r7 .r7 .r8 .id, .op2 .uadd16 .r9 .r9 .sl .id, .op2 .uadd16 .fp .fp .ip .id, .op2 .uadd16 .r0 .r0 .lr .id,
  .str .r3 .sp 0 .off, .str .r5 .sp 4 .off, .str .r7 .sp 8 .off, .str .r9 .sp 12 .off, .str .fp .sp 16 .off, .str .r0 .sp 20 .off,
  .ldr .r3 .r1 24 .off, .ldr .r4 .r1 56 .off, .ldr .r5 .r1 28 .off, .ldr .r6 .r1 60 .off, .op2 .uadd16 .r3 .r3 .r4 .id,
  .op2 .uadd16 .r5 .r5 .r6 .id, .str .r3 .sp 24 .off, .str .r5 .sp 28 .off, .op1 .id .r1 .sp, .ldr .r3 .r2 0 .off, .ldr .r4 .r2 32 .off,
  .ldr .r5 .r2 4 .off, .ldr .r6 .r2 36 .off, .ldr .r7 .r2 8 .off, .ldr .r8 .r2 40 .off, .ldr .r9 .r2 12 .off, .ldr .sl .r2 44 .off,
  .ldr .fp .r2 16 .off, .ldr .ip .r2 48 .off, .ldr .r0 .r2 20 .off, .ldr .lr .r2 52 .off, .op2 .uadd16 .r3 .r3 .r4 .id,
  .op2 .uadd16 .r5 .r5 .r6 .id, .op2 .uadd16 .r7 .r7 .r8 .id, .op2 .uadd16 .r9 .r9 .sl .id, .op2 .uadd16 .fp .fp .ip .id,
  .op2 .uadd16 .r0 .r0 .lr .id, .str .r3 .sp 32 .off, .str .r5 .sp 36 .off, .str .r7 .sp 40 .off, .str .r9 .sp 44 .off,
  .str .fp .sp 48 .off, .str .r0 .sp 52 .off, .ldr .r3 .r2 24 .off, .ldr .r4 .r2 56 .off, .ldr .r5 .r2 28 .off, .ldr .r6 .r2 60 .off,
  .op2 .uadd16 .r3 .r3 .r4 .id, .op2 .uadd16 .r5 .r5 .r6 .id, .str .r3 .sp 56 .off, .str .r5 .sp 60 .off, .addi .r2 .sp 32,
  .addi .r0 .sp 64]

/-- mult_toom4_256_16.s:911-1030 -/
def karatsuba_64x64_13 : List Ins := [
  .op1 .id .r3 .r0, .ldr .r0 .sp 128 .off, .ldr .r5 .r3 0 .off, .ldr .r6 .r3 32 .off, .ldr .r7 .r0 0 .off, .ldr .r8 .r0 32 .off,
  .ldr .r9 .r0 64 .off, .ldr .sl .r0 96 .off, .op2 .usub16 .fp .r5 .r7 .id, .op2 .usub16 .r8 .r8 .r9 .id, .op2 .uadd16 .fp .fp .r8 .id,
  .str .fp .r0 32 .off, .op2 .usub16 .r6 .r6 .r8 .id, .op2 .usub16 .r6 .r6 .sl .id, .str .r6 .r0 64 .off, .ldr .r5 .r3 4 .off,
  .ldr .r6 .r3 36 .off, .ldr .r7 .r0 4 .off, .ldr .r8 .r0 36 .off, .ldr .r9 .r0 68 .off, .ldr .sl .r0 100 .off,
  .op2 .usub16 .fp .r5 .r7 .id, .op2 .usub16 .r8 .r8 .r9 .id, .op2 .uadd16 .fp .fp .r8 .id, .str .fp .r0 36 .off,
  .op2 .usub16 .r6 .r6 .r8 .id, .op2 .usub16 .r6 .r6 .sl .id, .str .r6 .r0 68 .off, .ldr .r5 .r3 8 .off, .ldr .r6 .r3 40 .off,
  .ldr .r7 .r0 8 .off, .ldr .r8 .r0 40 .off, .ldr .r9 .r0 72 .off, .ldr .sl .r0 104 .off, .op2 .usub16 .fp .r5 .r7 .id,
  .op2 .usub16 .r8 .r8 .r9 .id, .op2 .uadd16 .fp .fp .r8 .id, .str .fp .r0 40 .off, .op2 .usub16 .r6 .r6 .r8 .id,
  .op2 .usub16 .r6 .r6 .sl .id, .str .r6 .r0 72 .off, .ldr .r5 .r3 12 .off, .ldr .r6 .r3 44 .off, .ldr .r7 .r0 12 .off,
  .ldr .r8 .r0 44 .off, .ldr .r9 .r0 76 .off, .ldr .sl .r0 108 .off, .op2 .usub16 .fp .r5 .r7 .id, .op2 .usub16 .r8 .r8 .r9 .id,
  .op2 .uadd16 .fp .fp .r8 .id, .str .fp .r0 44 .off, .op2 .usub16 .r6 .r6 .r8 .id, .op2 .usub16 .r6 .r6 .sl .id, .str .r6 .r0 76 .off,
  .ldr .r5 .r3 16 .off, .ldr .r6 .r3 48 .off, .ldr .r7 .r0 16 .off, .ldr .r8 .r0 48 .off, .ldr .r9 .r0 80 .off, .ldr .sl .r0 112 .off,
  .op2 .usub16 .fp .r5 .r7 .id, .op2 .usub16 .r8 .r8 .r9 .id, .op2 .uadd16 .fp .fp .r8 .id, .str .fp .r0 48 .off,
  .op2 .usub16 .r6 .r6 .r8 .id, .op2 .usub16 .r6 .r6 .sl .id, .str .r6 .r0 80 .off, .ldr .r5 .r3 20 .off, .ldr .r6 .r3 52 .off,
  .ldr .r7 .r0 20 .off, .ldr .r8 .r0 52 .off, .ldr .r9 .r0 84 .off, .ldr .sl .r0 116 .off, .op2 .usub16 .fp .r5 .r7 .id,
  .op2 .usub16 .r8 .r8 .r9 .id, .op2 .uadd16 .fp .fp .r8 .id, .str .fp .r0 52 .off, .op2 .usub16 .r6 .r6 .r8 .id,
  .op2 .usub16 .r6 .r6 .sl .id, .str .r6 .r0 84 .off, .ldr .r5 .r3 24 .off, .ldr .r6 .r3 56 .off, .ldr .r7 .r0 24 .off,
  .ldr .r8 .r0 56 .off, .ldr .r9 .r0 88 .off, .ldr .sl .r0 120 .off, .op2 .usub16 .fp .r5 .r7 .id, .op2 .usub16 .r8 .r8 .r9 .id,
  .op2 .uadd16 .fp .fp .r8 .id, .str .fp .r0 56 .off, .op2 .usub16 .r6 .r6 .r8 .id, .op2 .usub16 .r6 .r6 .sl .id, .str .r6 .r0 88 .off,
  .ldrh .r5 .r3 28 .off, .ldrh .r6 .r3 60 .off, .ldrh .r7 .r0 28 .off, .ldrh .r8 .r0 60 .off, .ldrh .r9 .r0 92 .off,
  .ldrh .sl .r0 124 .off, .op2 .sub .fp .r5 .r7 .id, .op2 .sub .r8 .r8 .r9 .id, .op2 .add .fp .fp .r8 .id, .strh .fp .r0 60 .off,
  .op2 .sub .r6 .r6 .r8 .id, .op2 .sub .r6 .r6 .sl .id, .strh .r6 .r0 92 .off, .ldrh .r5 .r3 30 .off, .ldrh .r7 .r0 30 .off,
  .ldrh .r9 .r0 94 .off, .op2 .sub .fp .r5 .r7 .id, .op2 .sub .fp .fp .r9 .id, .strh .fp .r0 62 .off, .addi .sp .sp 132, .pop [.r2],
  .pop [.r1], .op1 .id .r3 .r0, .ldr .r0 .sp 256 .off, .ldr .r5 .r3 0 .off, .ldr .r6 .r3 64 .off, .ldr .r7 .r0 0 .off]

/-- mult_toom4_256_16.s:1031-1150 -/
def karatsuba_64x64_14 : List Ins := [
  .ldr .r8 .r0 64 .off, .ldr .r9 .r0 128 .off, .ldr .sl .r0 192 .off, .op2 .usub16 .fp .r5 .r7 .id, .op2 .usub16 .r8 .r8 .r9 .id,
  .op2 .uadd16 .fp .fp .r8 .id, .str .fp .r0 64 .off, .op2 .usub16 .r6 .r6 .r8 .id, .op2 .usub16 .r6 .r6 .sl .id, .str .r6 .r0 128 .off,
  .ldr .r5 .r3 4 .off, .ldr .r6 .r3 68 .off, .ldr .r7 .r0 4 .off, .ldr .r8 .r0 68 .off, .ldr .r9 .r0 132 .off, .ldr .sl .r0 196 .off,
  .op2 .usub16 .fp .r5 .r7 .id, .op2 .usub16 .r8 .r8 .r9 .id, .op2 .uadd16 .fp .fp .r8 .id, .str .fp .r0 68 .off,
  .op2 .usub16 .r6 .r6 .r8 .id, .op2 .usub16 .r6 .r6 .sl .id, .str .r6 .r0 132 .off, .ldr .r5 .r3 8 .off, .ldr .r6 .r3 72 .off,
  .ldr .r7 .r0 8 .off, .ldr .r8 .r0 72 .off, .ldr .r9 .r0 136 .off, .ldr .sl .r0 200 .off, .op2 .usub16 .fp .r5 .r7 .id,
  .op2 .usub16 .r8 .r8 .r9 .id, .op2 .uadd16 .fp .fp .r8 .id, .str .fp .r0 72 .off, .op2 .usub16 .r6 .r6 .r8 .id,
  .op2 .usub16 .r6 .r6 .sl .id, .str .r6 .r0 136 .off, .ldr .r5 .r3 12 .off, .ldr .r6 .r3 76 .off, .ldr .r7 .r0 12 .off,
  .ldr .r8 .r0 76 .off, .ldr .r9 .r0 140 .off, .ldr .sl .r0 204 .off, .op2 .usub16 .fp .r5 .r7 .id, .op2 .usub16 .r8 .r8 .r9 .id,
  .op2 .uadd16 .fp .fp .r8 .id, .str .fp .r0 76 .off, .op2 .usub16 .r6 .r6 .r8 .id, .op2 .usub16 .r6 .r6 .sl .id, .str .r6 .r0 140 .off,
  .ldr .r5 .r3 16 .off, .ldr .r6 .r3 80 .off, .ldr .r7 .r0 16 .off, .ldr .r8 .r0 80 .off, .ldr .r9 .r0 144 .off, .ldr .sl .r0 208 .off,
  .op2 .usub16 .fp .r5 .r7 .id, .op2 .usub16 .r8 .r8 .r9 .id, .op2 .uadd16 .fp .fp .r8 .id, .str .fp .r0 80 .off,
  .op2 .usub16 .r6 .r6 .r8 .id, .op2 .usub16 .r6 .r6 .sl .id, .str .r6 .r0 144 .off, .ldr .r5 .r3 20 .off, .ldr .r6 .r3 84 .off,
  .ldr .r7 .r0 20 .off, .ldr .r8 .r0 84 .off, .ldr .r9 .r0 148 .off, .ldr .sl .r0 212 .off, .op2 .usub16 .fp .r5 .r7 .id,
  .op2 .usub16 .r8 .r8 .r9 .id, .op2 .uadd16 .fp .fp .r8 .id, .str .fp .r0 84 .off, .op2 .usub16 .r6 .r6 .r8 .id,
  .op2 .usub16 .r6 .r6 .sl .id, .str .r6 .r0 148 .off, .ldr .r5 .r3 24 .off, .ldr .r6 .r3 88 .off, .ldr .r7 .r0 24 .off,
  .ldr .r8 .r0 88 .off, .ldr .r9 .r0 152 .off, .ldr .sl .r0 216 .off, .op2 .usub16 .fp .r5 .r7 .id, .op2 .usub16 .r8 .r8 .r9 .id,
  .op2 .uadd16 .fp .fp .r8 .id, .str .fp .r0 88 .off, .op2 .usub16 .r6 .r6 .r8 .id, .op2 .usub16 .r6 .r6 .sl .id, .str .r6 .r0 152 .off,
  .ldr .r5 .r3 28 .off, .ldr .r6 .r3 92 .off, .ldr .r7 .r0 28 .off, .ldr .r8 .r0 92 .off, .ldr .r9 .r0 156 .off, .ldr .sl .r0 220 .off,
  .op2 .usub16 .fp .r5 .r7 .id, .op2 .usub16 .r8 .r8 .r9 .id, .op2 .uadd16 .fp .fp .r8 .id, .str .fp .r0 92 .off,
  .op2 .usub16 .r6 .r6 .r8 .id, .op2 .usub16 .r6 .r6 .sl .id, .str .r6 .r0 156 .off, .ldr .r5 .r3 32 .off, .ldr .r6 .r3 96 .off,
  .ldr .r7 .r0 32 .off, .ldr .r8 .r0 96 .off, .ldr .r9 .r0 160 .off, .ldr .sl .r0 224 .off, .op2 .usub16 .fp .r5 .r7 .id,
  .op2 .usub16 .r8 .r8 .r9 .id, .op2 .uadd16 .fp .fp .r8 .id, .str .fp .r0 96 .off, .op2 .usub16 .r6 .r6 .r8 .id,
  .op2 .usub16 .r6 .r6 .sl .id, .str .r6 .r0 160 .off, .ldr .r5 .r3 36 .off, .ldr .r6 .r3 100 .off, .ldr .r7 .r0 36 .off,
  .ldr .r8 .r0 100 .off, .ldr .r9 .r0 164 .off, .ldr .sl .r0 228 .off]

/-- mult_toom4_256_16.s:1151-1246 -/
def karatsuba_64x64_15 : List Ins := [
  .op2 .usub16 .fp .r5 .r7 .id, .op2 .usub16 .r8 .r8 .r9 .id, .op2 .uadd16 .fp .fp .r8 .id, .str .fp .r0 100 .off,
  .op2 .usub16 .r6 .r6 .r8 .id, .op2 .usub16 .r6 .r6 .sl .id, .str .r6 .r0 164 .off, .ldr .r5 .r3 40 .off, .ldr .r6 .r3 104 .off,
  .ldr .r7 .r0 40 .off, .ldr .r8 .r0 104 .off, .ldr .r9 .r0 168 .off, .ldr .sl .r0 232 .off, .op2 .usub16 .fp .r5 .r7 .id,
  .op2 .usub16 .r8 .r8 .r9 .id, .op2 .uadd16 .fp .fp .r8 .id, .str .fp .r0 104 .off, .op2 .usub16 .r6 .r6 .r8 .id,
  .op2 .usub16 .r6 .r6 .sl .id, .str .r6 .r0 168 .off, .ldr .r5 .r3 44 .off, .ldr .r6 .r3 108 .off, .ldr .r7 .r0 44 .off,
  .ldr .r8 .r0 108 .off, .ldr .r9 .r0 172 .off, .ldr .sl .r0 236 .off, .op2 .usub16 .fp .r5 .r7 .id, .op2 .usub16 .r8 .r8 .r9 .id,
  .op2 .uadd16 .fp .fp .r8 .id, .str .fp .r0 108 .off, .op2 .usub16 .r6 .r6 .r8 .id, .op2 .usub16 .r6 .r6 .sl .id, .str .r6 .r0 172 .off,
  .ldr .r5 .r3 48 .off, .ldr .r6 .r3 112 .off, .ldr .r7 .r0 48 .off, .ldr .r8 .r0 112 .off, .ldr .r9 .r0 176 .off, .ldr .sl .r0 240 .off,
  .op2 .usub16 .fp .r5 .r7 .id, .op2 .usub16 .r8 .r8 .r9 .id, .op2 .uadd16 .fp .fp .r8 .id, .str .fp .r0 112 .off,
  .op2 .usub16 .r6 .r6 .r8 .id, .op2 .usub16 .r6 .r6 .sl .id, .str .r6 .r0 176 .off, .ldr .r5 .r3 52 .off, .ldr .r6 .r3 116 .off,
  .ldr .r7 .r0 52 .off, .ldr .r8 .r0 116 .off, .ldr .r9 .r0 180 .off, .ldr .sl .r0 244 .off, .op2 .usub16 .fp .r5 .r7 .id,
  .op2 .usub16 .r8 .r8 .r9 .id, .op2 .uadd16 .fp .fp .r8 .id, .str .fp .r0 116 .off, .op2 .usub16 .r6 .r6 .r8 .id,
  .op2 .usub16 .r6 .r6 .sl .id, .str .r6 .r0 180 .off, .ldr .r5 .r3 56 .off, .ldr .r6 .r3 120 .off, .ldr .r7 .r0 56 .off,
  .ldr .r8 .r0 120 .off, .ldr .r9 .r0 184 .off, .ldr .sl .r0 248 .off, .op2 .usub16 .fp .r5 .r7 .id, .op2 .usub16 .r8 .r8 .r9 .id,
  .op2 .uadd16 .fp .fp .r8 .id, .str .fp .r0 120 .off, .op2 .usub16 .r6 .r6 .r8 .id, .op2 .usub16 .r6 .r6 .sl .id, .str .r6 .r0 184 .off,
  .ldrh .r5 .r3 60 .off, .ldrh .r6 .r3 124 .off, .ldrh .r7 .r0 60 .off, .ldrh .r8 .r0 124 .off, .ldrh .r9 .r0 188 .off,
  .ldrh .sl .r0 252 .off, .op2 .sub .fp .r5 .r7 .id, .op2 .sub .r8 .r8 .r9 .id, .op2 .add .fp .fp .r8 .id, .strh .fp .r0 124 .off,
  .op2 .sub .r6 .r6 .r8 .id, .op2 .sub .r6 .r6 .sl .id, .strh .r6 .r0 188 .off, .ldrh .r5 .r3 62 .off, .ldrh .r7 .r0 62 .off,
  .ldrh .r9 .r0 190 .off, .op2 .sub .fp .r5 .r7 .id, .op2 .sub .fp .fp .r9 .id, .strh .fp .r0 126 .off, .addi .sp .sp 260, .pop [.r2],
  .pop [.r1], .ldr .lr .sp 4 .post, .bx .lr]

/-- `karatsuba_64x64` (mult_toom4_256_16.s:302-1246) -/
def karatsuba_64x64 : List Stmt := [
  .ins karatsuba_64x64_1, .call 0, .ins karatsuba_64x64_2, .call 0, .ins karatsuba_64x64_3, .call 0, .ins karatsuba_64x64_4, .ins karatsuba_64x64_5, .call 0, .ins karatsuba_64x64_6, .call 0, .ins karatsuba_64x64_7, .call 0, .ins karatsuba_64x64_8, .ins karatsuba_64x64_9, .ins karatsuba_64x64_10, .call 0, .ins karatsuba_64x64_11, .call 0, .ins karatsuba_64x64_12, .call 0, .ins karatsuba_64x64_13, .ins karatsuba_64x64_14, .ins karatsuba_64x64_15]

end Saber.Arm
