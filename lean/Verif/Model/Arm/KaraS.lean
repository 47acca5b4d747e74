import Verif.Model.Arm.Machine
/-!
# `Cortex-M4/src/*/m4-striding/kara.s`

The instructions of the file, in order.  Functions are cut at labels, branches and calls.
-/
namespace Saber.Arm
/-- kara.s:7-126 -/
def schoolbook_gen_1 : List Ins := [
  .push [.lr], .ldr .r6 .r1 0 .off, .ldr .ip .r1 4 .off, .ldr .r3 .r1 8 .off, .ldr .sl .r1 12 .off, .ldr .r7 .r1 32 .off,
  .ldr .r8 .r1 36 .off, .ldr .r4 .r1 40 .off, .ldr .lr .r1 44 .off, .str .r1 .sp (-4) .pre, .op2 .smulbb .r9 .r7 .r6 .id,
  .op2 .smuadx .fp .r7 .r6 .id, .op2 .pkhbt .r9 .r9 .fp (.lsl 16), .str .r9 .r0 0 .off, .op2 .smuadx .fp .r7 .ip .id,
  .op2 .smulbb .r5 .r7 .ip .id, .op2 .pkhbt .r9 .r8 .r7 .id, .op3 .smladx .fp .r8 .r6 .fp, .op3 .smlad .r5 .r9 .r6 .r5,
  .op2 .pkhbt .fp .r5 .fp (.lsl 16), .str .fp .r0 4 .off, .op2 .smulbb .r5 .r3 .r7 .id, .op2 .smuadx .fp .r3 .r7 .id,
  .op3 .smlad .r5 .r9 .ip .r5, .op2 .pkhbt .r2 .r4 .r8 .id, .op3 .smlad .r5 .r2 .r6 .r5, .op3 .smladx .fp .r8 .ip .fp,
  .op3 .smladx .fp .r4 .r6 .fp, .op2 .pkhbt .fp .r5 .fp (.lsl 16), .str .fp .r0 8 .off, .op2 .smulbb .r5 .sl .r7 .id,
  .op2 .smuadx .fp .sl .r7 .id, .op3 .smlad .r5 .ip .r2 .r5, .op3 .smlad .r5 .r3 .r9 .r5, .op2 .pkhbt .r1 .lr .r4 .id,
  .op3 .smlad .r5 .r6 .r1 .r5, .op3 .smladx .fp .r3 .r8 .fp, .op3 .smladx .fp .ip .r4 .fp, .op3 .smladx .fp .r6 .lr .fp,
  .op2 .pkhbt .fp .r5 .fp (.lsl 16), .str .fp .r0 12 .off, .op2 .smultt .r5 .r6 .lr .id, .op2 .smuadx .fp .sl .r8 .id,
  .op3 .smlad .r5 .ip .r1 .r5, .op3 .smlad .r5 .sl .r9 .r5, .op3 .smlad .r5 .r3 .r2 .r5, .op3 .smladx .fp .r3 .r4 .fp,
  .op3 .smladx .fp .ip .lr .fp, .op2 .pkhbt .fp .r5 .fp (.lsl 16), .str .fp .r0 16 .off, .op2 .smultt .r5 .ip .lr .id,
  .op2 .smuadx .fp .sl .r4 .id, .op3 .smlad .r5 .sl .r2 .r5, .op3 .smlad .r5 .r3 .r1 .r5, .op3 .smladx .fp .r3 .lr .fp,
  .op2 .pkhbt .fp .r5 .fp (.lsl 16), .str .fp .r0 20 .off, .op2 .smuad .r5 .sl .r1 .id, .op2 .smuadx .fp .sl .lr .id,
  .op3 .smlatt .r5 .r3 .lr .r5, .op2 .pkhbt .fp .r5 .fp (.lsl 16), .ldr .r1 .sp 4 .post, .str .fp .r0 24 .off,
  .op2 .smultt .fp .sl .lr .id, .op1 (.movt 0) .fp .fp, .str .fp .r0 28 .off, .ldr .r7 .r1 48 .off, .ldr .r8 .r1 52 .off,
  .ldr .r4 .r1 56 .off, .ldr .lr .r1 60 .off, .str .r1 .sp (-4) .pre, .ldr .r9 .r0 16 .off, .ldr .r5 .r0 20 .off, .op1 (.lsr 16) .fp .r9,
  .op3 .smlabb .r9 .r7 .r6 .r9, .op3 .smladx .fp .r7 .r6 .fp, .op2 .pkhbt .r9 .r9 .fp (.lsl 16), .str .r9 .r0 16 .off,
  .op1 (.lsr 16) .fp .r5, .op3 .smladx .fp .r7 .ip .fp, .op3 .smlabb .r5 .r7 .ip .r5, .op2 .pkhbt .r9 .r8 .r7 .id,
  .op3 .smladx .fp .r8 .r6 .fp, .op3 .smlad .r5 .r9 .r6 .r5, .op2 .pkhbt .fp .r5 .fp (.lsl 16), .ldr .r5 .r0 24 .off,
  .str .fp .r0 20 .off, .op1 (.lsr 16) .fp .r5, .op3 .smlabb .r5 .r3 .r7 .r5, .op3 .smladx .fp .r3 .r7 .fp, .op3 .smlad .r5 .r9 .ip .r5,
  .op2 .pkhbt .r2 .r4 .r8 .id, .op3 .smlad .r5 .r2 .r6 .r5, .op3 .smladx .fp .r8 .ip .fp, .op3 .smladx .fp .r4 .r6 .fp,
  .op2 .pkhbt .fp .r5 .fp (.lsl 16), .ldr .r5 .r0 28 .off, .str .fp .r0 24 .off, .op1 (.lsr 16) .fp .r5, .op3 .smlabb .r5 .sl .r7 .r5,
  .op3 .smladx .fp .sl .r7 .fp, .op3 .smlad .r5 .ip .r2 .r5, .op3 .smlad .r5 .r3 .r9 .r5, .op2 .pkhbt .r1 .lr .r4 .id,
  .op3 .smlad .r5 .r6 .r1 .r5, .op3 .smladx .fp .r3 .r8 .fp, .op3 .smladx .fp .ip .r4 .fp, .op3 .smladx .fp .r6 .lr .fp,
  .op2 .pkhbt .fp .r5 .fp (.lsl 16), .str .fp .r0 28 .off, .op2 .smultt .r5 .r6 .lr .id, .op2 .smuadx .fp .sl .r8 .id,
  .op3 .smlad .r5 .ip .r1 .r5, .op3 .smlad .r5 .sl .r9 .r5, .op3 .smlad .r5 .r3 .r2 .r5, .ldr .r9 .r0 0 .off,
  .op3 .smladx .fp .r3 .r4 .fp, .op3 .smladx .fp .ip .lr .fp, .op2 .pkhbt .fp .r5 .fp (.lsl 16), .op2 .usub16 .fp .r9 .fp .id]

/-- kara.s:127-246 -/
def schoolbook_gen_2 : List Ins := [
  .ldr .r9 .r0 4 .off, .str .fp .r0 0 .off, .op2 .smultt .r5 .ip .lr .id, .op2 .smuadx .fp .sl .r4 .id, .op3 .smlad .r5 .sl .r2 .r5,
  .op3 .smlad .r5 .r3 .r1 .r5, .op3 .smladx .fp .r3 .lr .fp, .op2 .pkhbt .fp .r5 .fp (.lsl 16), .op2 .usub16 .fp .r9 .fp .id,
  .ldr .r9 .r0 8 .off, .str .fp .r0 4 .off, .op2 .smuad .r5 .sl .r1 .id, .op2 .smuadx .fp .sl .lr .id, .op3 .smlatt .r5 .r3 .lr .r5,
  .op2 .pkhbt .fp .r5 .fp (.lsl 16), .op2 .usub16 .fp .r9 .fp .id, .ldr .r9 .r0 12 .off, .ldr .r1 .sp 4 .post, .str .fp .r0 8 .off,
  .op2 .smultt .fp .sl .lr .id, .op1 (.movt 0) .fp .fp, .op2 .usub16 .fp .r9 .fp .id, .str .fp .r0 12 .off, .ldr .r6 .r1 16 .off,
  .ldr .ip .r1 20 .off, .ldr .r3 .r1 24 .off, .ldr .sl .r1 28 .off, .push [.r1], .ldr .r2 .r0 0 .off, .ldr .r1 .r0 4 .off,
  .op2 .smulbb .r9 .r7 .r6 .id, .op2 .smuadx .fp .r7 .r6 .id, .op2 .pkhbt .r9 .r9 .fp (.lsl 16), .op2 .usub16 .r9 .r2 .r9 .id,
  .str .r9 .r0 0 .off, .op2 .smuadx .fp .r7 .ip .id, .op2 .smulbb .r5 .r7 .ip .id, .op2 .pkhbt .r9 .r8 .r7 .id,
  .op3 .smladx .fp .r8 .r6 .fp, .op3 .smlad .r5 .r9 .r6 .r5, .op2 .pkhbt .fp .r5 .fp (.lsl 16), .op2 .usub16 .fp .r1 .fp .id,
  .ldr .r1 .r0 8 .off, .str .fp .r0 4 .off, .op2 .smulbb .r5 .r3 .r7 .id, .op2 .smuadx .fp .r3 .r7 .id, .op3 .smlad .r5 .r9 .ip .r5,
  .op2 .pkhbt .r2 .r4 .r8 .id, .op3 .smlad .r5 .r2 .r6 .r5, .op3 .smladx .fp .r8 .ip .fp, .op3 .smladx .fp .r4 .r6 .fp,
  .op2 .pkhbt .fp .r5 .fp (.lsl 16), .op2 .usub16 .fp .r1 .fp .id, .str .fp .r0 8 .off, .op2 .smulbb .r5 .sl .r7 .id,
  .op2 .smuadx .fp .sl .r7 .id, .op3 .smlad .r5 .ip .r2 .r5, .op3 .smlad .r5 .r3 .r9 .r5, .op2 .pkhbt .r1 .lr .r4 .id,
  .op3 .smlad .r5 .r6 .r1 .r5, .ldr .r9 .r0 12 .off, .op3 .smladx .fp .r3 .r8 .fp, .op3 .smladx .fp .ip .r4 .fp,
  .op3 .smladx .fp .r6 .lr .fp, .op2 .pkhbt .fp .r5 .fp (.lsl 16), .op2 .usub16 .fp .r9 .fp .id, .str .fp .r0 12 .off,
  .op2 .smultt .r5 .r6 .lr .id, .op2 .smuadx .fp .sl .r8 .id, .op3 .smlad .r5 .ip .r1 .r5, .op2 .pkhbt .r9 .r8 .r7 .id,
  .op3 .smlad .r5 .sl .r9 .r5, .op3 .smlad .r5 .r3 .r2 .r5, .ldr .r9 .r0 16 .off, .op3 .smladx .fp .r3 .r4 .fp,
  .op3 .smladx .fp .ip .lr .fp, .op2 .pkhbt .fp .r5 .fp (.lsl 16), .op2 .usub16 .fp .r9 .fp .id, .ldr .r9 .r0 20 .off,
  .str .fp .r0 16 .off, .op2 .smultt .r5 .ip .lr .id, .op2 .smuadx .fp .sl .r4 .id, .op3 .smlad .r5 .sl .r2 .r5,
  .op3 .smlad .r5 .r3 .r1 .r5, .op3 .smladx .fp .r3 .lr .fp, .op2 .pkhbt .fp .r5 .fp (.lsl 16), .op2 .usub16 .fp .r9 .fp .id,
  .ldr .r9 .r0 24 .off, .str .fp .r0 20 .off, .op2 .smuad .r5 .sl .r1 .id, .op2 .smuadx .fp .sl .lr .id, .op3 .smlatt .r5 .r3 .lr .r5,
  .op2 .pkhbt .fp .r5 .fp (.lsl 16), .op2 .usub16 .fp .r9 .fp .id, .ldr .r9 .r0 28 .off, .ldr .r1 .sp 4 .post, .str .fp .r0 24 .off,
  .op2 .smultt .fp .sl .lr .id, .op1 (.movt 0) .fp .fp, .op2 .usub16 .fp .r9 .fp .id, .str .fp .r0 28 .off, .ldr .r7 .r1 32 .off,
  .ldr .r8 .r1 36 .off, .ldr .r4 .r1 40 .off, .ldr .lr .r1 44 .off, .str .r1 .sp (-4) .pre, .ldr .r9 .r0 16 .off, .ldr .r5 .r0 20 .off,
  .op1 (.lsr 16) .fp .r9, .op3 .smlabb .r9 .r7 .r6 .r9, .op3 .smladx .fp .r7 .r6 .fp, .op2 .pkhbt .r9 .r9 .fp (.lsl 16),
  .str .r9 .r0 16 .off, .op1 (.lsr 16) .fp .r5, .op3 .smladx .fp .r7 .ip .fp, .op3 .smlabb .r5 .r7 .ip .r5, .op2 .pkhbt .r9 .r8 .r7 .id,
  .op3 .smladx .fp .r8 .r6 .fp, .op3 .smlad .r5 .r9 .r6 .r5, .op2 .pkhbt .fp .r5 .fp (.lsl 16)]

/-- kara.s:247-306 -/
def schoolbook_gen_3 : List Ins := [
  .ldr .r5 .r0 24 .off, .str .fp .r0 20 .off, .op1 (.lsr 16) .fp .r5, .op3 .smlabb .r5 .r3 .r7 .r5, .op3 .smladx .fp .r3 .r7 .fp,
  .op3 .smlad .r5 .r9 .ip .r5, .op2 .pkhbt .r2 .r4 .r8 .id, .op3 .smlad .r5 .r2 .r6 .r5, .op3 .smladx .fp .r8 .ip .fp,
  .op3 .smladx .fp .r4 .r6 .fp, .op2 .pkhbt .fp .r5 .fp (.lsl 16), .ldr .r5 .r0 28 .off, .str .fp .r0 24 .off, .op1 (.lsr 16) .fp .r5,
  .op3 .smlabb .r5 .sl .r7 .r5, .op3 .smladx .fp .sl .r7 .fp, .op3 .smlad .r5 .ip .r2 .r5, .op3 .smlad .r5 .r3 .r9 .r5,
  .op2 .pkhbt .r1 .lr .r4 .id, .op3 .smlad .r5 .r6 .r1 .r5, .op3 .smladx .fp .r3 .r8 .fp, .op3 .smladx .fp .ip .r4 .fp,
  .op3 .smladx .fp .r6 .lr .fp, .op2 .pkhbt .fp .r5 .fp (.lsl 16), .str .fp .r0 28 .off, .op2 .smultt .r5 .r6 .lr .id,
  .op2 .smuadx .fp .sl .r8 .id, .op3 .smlad .r5 .ip .r1 .r5, .op3 .smlad .r5 .sl .r9 .r5, .op3 .smlad .r5 .r3 .r2 .r5,
  .ldr .r9 .r0 0 .off, .op3 .smladx .fp .r3 .r4 .fp, .op3 .smladx .fp .ip .lr .fp, .op2 .pkhbt .fp .r5 .fp (.lsl 16),
  .op2 .usub16 .fp .r9 .fp .id, .ldr .r9 .r0 4 .off, .str .fp .r0 0 .off, .op2 .smultt .r5 .ip .lr .id, .op2 .smuadx .fp .sl .r4 .id,
  .op3 .smlad .r5 .sl .r2 .r5, .op3 .smlad .r5 .r3 .r1 .r5, .op3 .smladx .fp .r3 .lr .fp, .op2 .pkhbt .fp .r5 .fp (.lsl 16),
  .op2 .usub16 .fp .r9 .fp .id, .ldr .r9 .r0 8 .off, .str .fp .r0 4 .off, .op2 .smuad .r5 .sl .r1 .id, .op2 .smuadx .fp .sl .lr .id,
  .op3 .smlatt .r5 .r3 .lr .r5, .op2 .pkhbt .fp .r5 .fp (.lsl 16), .op2 .usub16 .fp .r9 .fp .id, .ldr .r9 .r0 12 .off,
  .ldr .r1 .sp 4 .post, .str .fp .r0 8 .off, .op2 .smultt .fp .sl .lr .id, .op1 (.movt 0) .fp .fp, .op2 .usub16 .fp .r9 .fp .id,
  .str .fp .r0 12 .off, .ldr .lr .sp 4 .post, .bx .lr]

/-- `schoolbook_gen` (kara.s:6-306) -/
def schoolbook_gen : List Stmt := [
  .ins schoolbook_gen_1, .ins schoolbook_gen_2, .ins schoolbook_gen_3]

/-- kara.s:311-430 -/
def kara_strd_mem_asm_1 : List Ins := [
  .push [.r4, .r5, .r6, .r7, .r8, .r9, .sl, .fp, .lr], .ldr .r4 .r0 0 .off, .ldr .r5 .r0 4 .off, .ldr .r6 .r0 8 .off,
  .ldr .r7 .r0 12 .off, .ldr .r8 .r0 16 .off, .ldr .r9 .r0 20 .off, .ldr .sl .r0 24 .off, .ldr .fp .r0 28 .off,
  .op2 .pkhbt .ip .r4 .r5 (.lsl 16), .str .ip .r0 0 .off, .op2 .pkhtb .lr .r5 .r4 (.asr 16), .str .lr .r2 64 .off,
  .op2 .uadd16 .ip .ip .lr .id, .str .ip .r2 0 .off, .op2 .pkhbt .ip .r6 .r7 (.lsl 16), .str .ip .r0 4 .off,
  .op2 .pkhtb .lr .r7 .r6 (.asr 16), .str .lr .r2 68 .off, .op2 .uadd16 .ip .ip .lr .id, .str .ip .r2 4 .off,
  .op2 .pkhbt .ip .r8 .r9 (.lsl 16), .str .ip .r0 8 .off, .op2 .pkhtb .lr .r9 .r8 (.asr 16), .str .lr .r2 72 .off,
  .op2 .uadd16 .ip .ip .lr .id, .str .ip .r2 8 .off, .op2 .pkhbt .ip .sl .fp (.lsl 16), .str .ip .r0 12 .off,
  .op2 .pkhtb .lr .fp .sl (.asr 16), .str .lr .r2 76 .off, .op2 .uadd16 .ip .ip .lr .id, .str .ip .r2 12 .off, .ldr .r4 .r0 32 .off,
  .ldr .r5 .r0 36 .off, .ldr .r6 .r0 40 .off, .ldr .r7 .r0 44 .off, .ldr .r8 .r0 48 .off, .ldr .r9 .r0 52 .off, .ldr .sl .r0 56 .off,
  .ldr .fp .r0 60 .off, .op2 .pkhbt .ip .r4 .r5 (.lsl 16), .str .ip .r0 16 .off, .op2 .pkhtb .lr .r5 .r4 (.asr 16), .str .lr .r2 80 .off,
  .op2 .uadd16 .ip .ip .lr .id, .str .ip .r2 16 .off, .op2 .pkhbt .ip .r6 .r7 (.lsl 16), .str .ip .r0 20 .off,
  .op2 .pkhtb .lr .r7 .r6 (.asr 16), .str .lr .r2 84 .off, .op2 .uadd16 .ip .ip .lr .id, .str .ip .r2 20 .off,
  .op2 .pkhbt .ip .r8 .r9 (.lsl 16), .str .ip .r0 24 .off, .op2 .pkhtb .lr .r9 .r8 (.asr 16), .str .lr .r2 88 .off,
  .op2 .uadd16 .ip .ip .lr .id, .str .ip .r2 24 .off, .op2 .pkhbt .ip .sl .fp (.lsl 16), .str .ip .r0 28 .off,
  .op2 .pkhtb .lr .fp .sl (.asr 16), .str .lr .r2 92 .off, .op2 .uadd16 .ip .ip .lr .id, .str .ip .r2 28 .off, .ldr .r4 .r0 64 .off,
  .ldr .r5 .r0 68 .off, .ldr .r6 .r0 72 .off, .ldr .r7 .r0 76 .off, .ldr .r8 .r0 80 .off, .ldr .r9 .r0 84 .off, .ldr .sl .r0 88 .off,
  .ldr .fp .r0 92 .off, .op2 .pkhbt .ip .r4 .r5 (.lsl 16), .str .ip .r0 32 .off, .op2 .pkhtb .lr .r5 .r4 (.asr 16), .str .lr .r2 96 .off,
  .op2 .uadd16 .ip .ip .lr .id, .str .ip .r2 32 .off, .op2 .pkhbt .ip .r6 .r7 (.lsl 16), .str .ip .r0 36 .off,
  .op2 .pkhtb .lr .r7 .r6 (.asr 16), .str .lr .r2 100 .off, .op2 .uadd16 .ip .ip .lr .id, .str .ip .r2 36 .off,
  .op2 .pkhbt .ip .r8 .r9 (.lsl 16), .str .ip .r0 40 .off, .op2 .pkhtb .lr .r9 .r8 (.asr 16), .str .lr .r2 104 .off,
  .op2 .uadd16 .ip .ip .lr .id, .str .ip .r2 40 .off, .op2 .pkhbt .ip .sl .fp (.lsl 16), .str .ip .r0 44 .off,
  .op2 .pkhtb .lr .fp .sl (.asr 16), .str .lr .r2 108 .off, .op2 .uadd16 .ip .ip .lr .id, .str .ip .r2 44 .off, .ldr .r4 .r0 96 .off,
  .ldr .r5 .r0 100 .off, .ldr .r6 .r0 104 .off, .ldr .r7 .r0 108 .off, .ldr .r8 .r0 112 .off, .ldr .r9 .r0 116 .off,
  .ldr .sl .r0 120 .off, .ldr .fp .r0 124 .off, .op2 .pkhbt .ip .r4 .r5 (.lsl 16), .str .ip .r0 48 .off,
  .op2 .pkhtb .lr .r5 .r4 (.asr 16), .str .lr .r2 112 .off, .op2 .uadd16 .ip .ip .lr .id, .str .ip .r2 48 .off,
  .op2 .pkhbt .ip .r6 .r7 (.lsl 16), .str .ip .r0 52 .off, .op2 .pkhtb .lr .r7 .r6 (.asr 16), .str .lr .r2 116 .off,
  .op2 .uadd16 .ip .ip .lr .id, .str .ip .r2 52 .off, .op2 .pkhbt .ip .r8 .r9 (.lsl 16), .str .ip .r0 56 .off,
  .op2 .pkhtb .lr .r9 .r8 (.asr 16)]

/-- kara.s:431-550 -/
def kara_strd_mem_asm_2 : List Ins := [
  .str .lr .r2 120 .off, .op2 .uadd16 .ip .ip .lr .id, .str .ip .r2 56 .off, .op2 .pkhbt .ip .sl .fp (.lsl 16), .str .ip .r0 60 .off,
  .op2 .pkhtb .lr .fp .sl (.asr 16), .str .lr .r2 124 .off, .op2 .uadd16 .ip .ip .lr .id, .str .ip .r2 60 .off, .ldr .r4 .r1 0 .off,
  .ldr .r5 .r1 4 .off, .ldr .r6 .r1 8 .off, .ldr .r7 .r1 12 .off, .ldr .r8 .r1 16 .off, .ldr .r9 .r1 20 .off, .ldr .sl .r1 24 .off,
  .ldr .fp .r1 28 .off, .op2 .pkhbt .ip .r4 .r5 (.lsl 16), .str .ip .r1 0 .off, .op2 .pkhtb .lr .r5 .r4 (.asr 16), .str .lr .r3 0 .off,
  .op2 .uadd16 .ip .ip .lr .id, .str .ip .r0 64 .off, .op2 .pkhbt .ip .r6 .r7 (.lsl 16), .str .ip .r1 4 .off,
  .op2 .pkhtb .lr .r7 .r6 (.asr 16), .str .lr .r3 4 .off, .op2 .uadd16 .ip .ip .lr .id, .str .ip .r0 68 .off,
  .op2 .pkhbt .ip .r8 .r9 (.lsl 16), .str .ip .r1 8 .off, .op2 .pkhtb .lr .r9 .r8 (.asr 16), .str .lr .r3 8 .off,
  .op2 .uadd16 .ip .ip .lr .id, .str .ip .r0 72 .off, .op2 .pkhbt .ip .sl .fp (.lsl 16), .str .ip .r1 12 .off,
  .op2 .pkhtb .lr .fp .sl (.asr 16), .str .lr .r3 12 .off, .op2 .uadd16 .ip .ip .lr .id, .str .ip .r0 76 .off, .ldr .r4 .r1 32 .off,
  .ldr .r5 .r1 36 .off, .ldr .r6 .r1 40 .off, .ldr .r7 .r1 44 .off, .ldr .r8 .r1 48 .off, .ldr .r9 .r1 52 .off, .ldr .sl .r1 56 .off,
  .ldr .fp .r1 60 .off, .op2 .pkhbt .ip .r4 .r5 (.lsl 16), .str .ip .r1 16 .off, .op2 .pkhtb .lr .r5 .r4 (.asr 16), .str .lr .r3 16 .off,
  .op2 .uadd16 .ip .ip .lr .id, .str .ip .r0 80 .off, .op2 .pkhbt .ip .r6 .r7 (.lsl 16), .str .ip .r1 20 .off,
  .op2 .pkhtb .lr .r7 .r6 (.asr 16), .str .lr .r3 20 .off, .op2 .uadd16 .ip .ip .lr .id, .str .ip .r0 84 .off,
  .op2 .pkhbt .ip .r8 .r9 (.lsl 16), .str .ip .r1 24 .off, .op2 .pkhtb .lr .r9 .r8 (.asr 16), .str .lr .r3 24 .off,
  .op2 .uadd16 .ip .ip .lr .id, .str .ip .r0 88 .off, .op2 .pkhbt .ip .sl .fp (.lsl 16), .str .ip .r1 28 .off,
  .op2 .pkhtb .lr .fp .sl (.asr 16), .str .lr .r3 28 .off, .op2 .uadd16 .ip .ip .lr .id, .str .ip .r0 92 .off, .ldr .r4 .r1 64 .off,
  .ldr .r5 .r1 68 .off, .ldr .r6 .r1 72 .off, .ldr .r7 .r1 76 .off, .ldr .r8 .r1 80 .off, .ldr .r9 .r1 84 .off, .ldr .sl .r1 88 .off,
  .ldr .fp .r1 92 .off, .op2 .pkhbt .ip .r4 .r5 (.lsl 16), .str .ip .r1 32 .off, .op2 .pkhtb .lr .r5 .r4 (.asr 16), .str .lr .r3 32 .off,
  .op2 .uadd16 .ip .ip .lr .id, .str .ip .r0 96 .off, .op2 .pkhbt .ip .r6 .r7 (.lsl 16), .str .ip .r1 36 .off,
  .op2 .pkhtb .lr .r7 .r6 (.asr 16), .str .lr .r3 36 .off, .op2 .uadd16 .ip .ip .lr .id, .str .ip .r0 100 .off,
  .op2 .pkhbt .ip .r8 .r9 (.lsl 16), .str .ip .r1 40 .off, .op2 .pkhtb .lr .r9 .r8 (.asr 16), .str .lr .r3 40 .off,
  .op2 .uadd16 .ip .ip .lr .id, .str .ip .r0 104 .off, .op2 .pkhbt .ip .sl .fp (.lsl 16), .str .ip .r1 44 .off,
  .op2 .pkhtb .lr .fp .sl (.asr 16), .str .lr .r3 44 .off, .op2 .uadd16 .ip .ip .lr .id, .str .ip .r0 108 .off, .ldr .r4 .r1 96 .off,
  .ldr .r5 .r1 100 .off, .ldr .r6 .r1 104 .off, .ldr .r7 .r1 108 .off, .ldr .r8 .r1 112 .off, .ldr .r9 .r1 116 .off,
  .ldr .sl .r1 120 .off, .ldr .fp .r1 124 .off, .op2 .pkhbt .ip .r4 .r5 (.lsl 16), .str .ip .r1 48 .off,
  .op2 .pkhtb .lr .r5 .r4 (.asr 16), .str .lr .r3 48 .off, .op2 .uadd16 .ip .ip .lr .id, .str .ip .r0 112 .off,
  .op2 .pkhbt .ip .r6 .r7 (.lsl 16)]

/-- kara.s:551-670 -/
def kara_strd_mem_asm_3 : List Ins := [
  .str .ip .r1 52 .off, .op2 .pkhtb .lr .r7 .r6 (.asr 16), .str .lr .r3 52 .off, .op2 .uadd16 .ip .ip .lr .id, .str .ip .r0 116 .off,
  .op2 .pkhbt .ip .r8 .r9 (.lsl 16), .str .ip .r1 56 .off, .op2 .pkhtb .lr .r9 .r8 (.asr 16), .str .lr .r3 56 .off,
  .op2 .uadd16 .ip .ip .lr .id, .str .ip .r0 120 .off, .op2 .pkhbt .ip .sl .fp (.lsl 16), .str .ip .r1 60 .off,
  .op2 .pkhtb .lr .fp .sl (.asr 16), .str .lr .r3 60 .off, .op2 .uadd16 .ip .ip .lr .id, .str .ip .r0 124 .off, .ldr .r4 .r0 0 .off,
  .ldr .r5 .r0 4 .off, .ldr .r6 .r0 8 .off, .ldr .r7 .r0 12 .off, .ldr .r8 .r0 16 .off, .ldr .r9 .r0 20 .off, .ldr .sl .r0 24 .off,
  .ldr .fp .r0 28 .off, .op2 .pkhbt .ip .r4 .r5 (.lsl 16), .str .ip .r0 0 .off, .op2 .pkhtb .lr .r5 .r4 (.asr 16), .str .lr .r3 64 .off,
  .op2 .uadd16 .ip .ip .lr .id, .str .ip .r1 64 .off, .op2 .pkhbt .ip .r6 .r7 (.lsl 16), .str .ip .r0 4 .off,
  .op2 .pkhtb .lr .r7 .r6 (.asr 16), .str .lr .r3 68 .off, .op2 .uadd16 .ip .ip .lr .id, .str .ip .r1 68 .off,
  .op2 .pkhbt .ip .r8 .r9 (.lsl 16), .str .ip .r0 8 .off, .op2 .pkhtb .lr .r9 .r8 (.asr 16), .str .lr .r3 72 .off,
  .op2 .uadd16 .ip .ip .lr .id, .str .ip .r1 72 .off, .op2 .pkhbt .ip .sl .fp (.lsl 16), .str .ip .r0 12 .off,
  .op2 .pkhtb .lr .fp .sl (.asr 16), .str .lr .r3 76 .off, .op2 .uadd16 .ip .ip .lr .id, .str .ip .r1 76 .off, .ldr .r4 .r0 32 .off,
  .ldr .r5 .r0 36 .off, .ldr .r6 .r0 40 .off, .ldr .r7 .r0 44 .off, .ldr .r8 .r0 48 .off, .ldr .r9 .r0 52 .off, .ldr .sl .r0 56 .off,
  .ldr .fp .r0 60 .off, .op2 .pkhbt .ip .r4 .r5 (.lsl 16), .str .ip .r0 16 .off, .op2 .pkhtb .lr .r5 .r4 (.asr 16), .str .lr .r3 80 .off,
  .op2 .uadd16 .ip .ip .lr .id, .str .ip .r1 80 .off, .op2 .pkhbt .ip .r6 .r7 (.lsl 16), .str .ip .r0 20 .off,
  .op2 .pkhtb .lr .r7 .r6 (.asr 16), .str .lr .r3 84 .off, .op2 .uadd16 .ip .ip .lr .id, .str .ip .r1 84 .off,
  .op2 .pkhbt .ip .r8 .r9 (.lsl 16), .str .ip .r0 24 .off, .op2 .pkhtb .lr .r9 .r8 (.asr 16), .str .lr .r3 88 .off,
  .op2 .uadd16 .ip .ip .lr .id, .str .ip .r1 88 .off, .op2 .pkhbt .ip .sl .fp (.lsl 16), .str .ip .r0 28 .off,
  .op2 .pkhtb .lr .fp .sl (.asr 16), .str .lr .r3 92 .off, .op2 .uadd16 .ip .ip .lr .id, .str .ip .r1 92 .off, .ldr .r4 .r1 0 .off,
  .ldr .r5 .r1 4 .off, .ldr .r6 .r1 8 .off, .ldr .r7 .r1 12 .off, .ldr .r8 .r1 16 .off, .ldr .r9 .r1 20 .off, .ldr .sl .r1 24 .off,
  .ldr .fp .r1 28 .off, .op2 .pkhbt .ip .r4 .r5 (.lsl 16), .str .ip .r0 32 .off, .op2 .pkhtb .lr .r5 .r4 (.asr 16), .str .lr .r3 96 .off,
  .op2 .uadd16 .ip .ip .lr .id, .str .ip .r1 96 .off, .op2 .pkhbt .ip .r6 .r7 (.lsl 16), .str .ip .r0 36 .off,
  .op2 .pkhtb .lr .r7 .r6 (.asr 16), .str .lr .r3 100 .off, .op2 .uadd16 .ip .ip .lr .id, .str .ip .r1 100 .off,
  .op2 .pkhbt .ip .r8 .r9 (.lsl 16), .str .ip .r0 40 .off, .op2 .pkhtb .lr .r9 .r8 (.asr 16), .str .lr .r3 104 .off,
  .op2 .uadd16 .ip .ip .lr .id, .str .ip .r1 104 .off, .op2 .pkhbt .ip .sl .fp (.lsl 16), .str .ip .r0 44 .off,
  .op2 .pkhtb .lr .fp .sl (.asr 16), .str .lr .r3 108 .off, .op2 .uadd16 .ip .ip .lr .id, .str .ip .r1 108 .off, .ldr .r4 .r1 32 .off,
  .ldr .r5 .r1 36 .off, .ldr .r6 .r1 40 .off, .ldr .r7 .r1 44 .off, .ldr .r8 .r1 48 .off, .ldr .r9 .r1 52 .off, .ldr .sl .r1 56 .off]

/-- kara.s:671-699 -/
def kara_strd_mem_asm_4 : List Ins := [
  .ldr .fp .r1 60 .off, .op2 .pkhbt .ip .r4 .r5 (.lsl 16), .str .ip .r0 48 .off, .op2 .pkhtb .lr .r5 .r4 (.asr 16),
  .str .lr .r3 112 .off, .op2 .uadd16 .ip .ip .lr .id, .str .ip .r1 112 .off, .op2 .pkhbt .ip .r6 .r7 (.lsl 16), .str .ip .r0 52 .off,
  .op2 .pkhtb .lr .r7 .r6 (.asr 16), .str .lr .r3 116 .off, .op2 .uadd16 .ip .ip .lr .id, .str .ip .r1 116 .off,
  .op2 .pkhbt .ip .r8 .r9 (.lsl 16), .str .ip .r0 56 .off, .op2 .pkhtb .lr .r9 .r8 (.asr 16), .str .lr .r3 120 .off,
  .op2 .uadd16 .ip .ip .lr .id, .str .ip .r1 120 .off, .op2 .pkhbt .ip .sl .fp (.lsl 16), .str .ip .r0 60 .off,
  .op2 .pkhtb .lr .fp .sl (.asr 16), .str .lr .r3 124 .off, .op2 .uadd16 .ip .ip .lr .id, .str .ip .r1 124 .off,
  .push [.r0, .r1, .r2, .r3], .op1 .id .ip .r0, .op1 .id .r0 .r1, .op1 .id .r1 .ip]

/-- kara.s:701-702 -/
def kara_strd_mem_asm_5 : List Ins := [
  .addi .r1 .r0 64, .addi .r0 .r0 32]

/-- kara.s:704-706 -/
def kara_strd_mem_asm_6 : List Ins := [
  .ldr .ip .sp 12 .off, .op1 .id .r0 .r1, .addi .r1 .ip 64]

/-- kara.s:708-827 -/
def kara_strd_mem_asm_7 : List Ins := [
  .pop [.r0, .r1, .r2, .r3], .ldr .r4 .r1 0 .off, .ldr .r5 .r1 4 .off, .ldr .r6 .r1 32 .off, .ldr .r7 .r1 36 .off, .ldr .r8 .r1 64 .off,
  .ldr .r9 .r1 68 .off, .ldr .fp .r1 66 .off, .op2 .usub16 .r6 .r6 .r4 .id, .op2 .usub16 .r7 .r7 .r5 .id, .op2 .usub16 .r6 .r6 .r8 .id,
  .op2 .usub16 .r7 .r7 .r9 .id, .op1 (.lsl 16) .sl .r8, .op2 .uadd16 .r4 .r4 .sl .id, .op2 .uadd16 .r5 .r5 .fp .id,
  .op2 .pkhbt .ip .r4 .r6 (.lsl 16), .str .ip .r0 0 .off, .op2 .pkhtb .ip .r6 .r4 (.asr 16), .str .ip .r0 4 .off,
  .op2 .pkhbt .ip .r5 .r7 (.lsl 16), .str .ip .r0 8 .off, .op2 .pkhtb .ip .r7 .r5 (.asr 16), .str .ip .r0 12 .off, .ldr .r4 .r1 8 .off,
  .ldr .r5 .r1 12 .off, .ldr .r6 .r1 40 .off, .ldr .r7 .r1 44 .off, .ldr .r8 .r1 72 .off, .ldr .r9 .r1 76 .off, .ldr .sl .r1 70 .off,
  .ldr .fp .r1 74 .off, .op2 .usub16 .r6 .r6 .r4 .id, .op2 .usub16 .r7 .r7 .r5 .id, .op2 .usub16 .r6 .r6 .r8 .id,
  .op2 .usub16 .r7 .r7 .r9 .id, .op2 .uadd16 .r4 .r4 .sl .id, .op2 .uadd16 .r5 .r5 .fp .id, .op2 .pkhbt .ip .r4 .r6 (.lsl 16),
  .str .ip .r0 16 .off, .op2 .pkhtb .ip .r6 .r4 (.asr 16), .str .ip .r0 20 .off, .op2 .pkhbt .ip .r5 .r7 (.lsl 16), .str .ip .r0 24 .off,
  .op2 .pkhtb .ip .r7 .r5 (.asr 16), .str .ip .r0 28 .off, .ldr .r4 .r1 16 .off, .ldr .r5 .r1 20 .off, .ldr .r6 .r1 48 .off,
  .ldr .r7 .r1 52 .off, .ldr .r8 .r1 80 .off, .ldr .r9 .r1 84 .off, .ldr .sl .r1 78 .off, .ldr .fp .r1 82 .off,
  .op2 .usub16 .r6 .r6 .r4 .id, .op2 .usub16 .r7 .r7 .r5 .id, .op2 .usub16 .r6 .r6 .r8 .id, .op2 .usub16 .r7 .r7 .r9 .id,
  .op2 .uadd16 .r4 .r4 .sl .id, .op2 .uadd16 .r5 .r5 .fp .id, .op2 .pkhbt .ip .r4 .r6 (.lsl 16), .str .ip .r0 32 .off,
  .op2 .pkhtb .ip .r6 .r4 (.asr 16), .str .ip .r0 36 .off, .op2 .pkhbt .ip .r5 .r7 (.lsl 16), .str .ip .r0 40 .off,
  .op2 .pkhtb .ip .r7 .r5 (.asr 16), .str .ip .r0 44 .off, .ldr .r4 .r1 24 .off, .ldr .r5 .r1 28 .off, .ldr .r6 .r1 56 .off,
  .ldr .r7 .r1 60 .off, .ldr .r8 .r1 88 .off, .ldr .r9 .r1 92 .off, .ldr .sl .r1 86 .off, .ldr .fp .r1 90 .off,
  .op2 .usub16 .r6 .r6 .r4 .id, .op2 .usub16 .r7 .r7 .r5 .id, .op2 .usub16 .r6 .r6 .r8 .id, .op2 .usub16 .r7 .r7 .r9 .id,
  .op2 .uadd16 .r4 .r4 .sl .id, .op2 .uadd16 .r5 .r5 .fp .id, .op2 .pkhbt .ip .r4 .r6 (.lsl 16), .str .ip .r0 48 .off,
  .op2 .pkhtb .ip .r6 .r4 (.asr 16), .str .ip .r0 52 .off, .ldrh .r4 .r0 0 .off, .op2 .pkhbt .ip .r5 .r7 (.lsl 16), .str .ip .r0 56 .off,
  .op2 .pkhtb .ip .r7 .r5 (.asr 16), .str .ip .r0 60 .off, .op2 .sub .ip .r4 .r9 (.asr 16), .strh .ip .r0 0 .off, .ldr .r4 .r2 0 .off,
  .ldr .r5 .r2 4 .off, .ldr .r6 .r2 8 .off, .ldr .r7 .r2 12 .off, .ldr .r8 .r2 16 .off, .ldr .r9 .r2 20 .off, .ldr .sl .r2 24 .off,
  .ldr .fp .r2 28 .off, .op2 .pkhbt .ip .r4 .r5 (.lsl 16), .str .ip .r1 0 .off, .op2 .pkhtb .lr .r5 .r4 (.asr 16), .str .lr .r3 64 .off,
  .op2 .uadd16 .ip .ip .lr .id, .str .ip .r1 64 .off, .op2 .pkhbt .ip .r6 .r7 (.lsl 16), .str .ip .r1 4 .off,
  .op2 .pkhtb .lr .r7 .r6 (.asr 16), .str .lr .r3 68 .off, .op2 .uadd16 .ip .ip .lr .id, .str .ip .r1 68 .off,
  .op2 .pkhbt .ip .r8 .r9 (.lsl 16), .str .ip .r1 8 .off, .op2 .pkhtb .lr .r9 .r8 (.asr 16), .str .lr .r3 72 .off,
  .op2 .uadd16 .ip .ip .lr .id, .str .ip .r1 72 .off, .op2 .pkhbt .ip .sl .fp (.lsl 16), .str .ip .r1 12 .off]

/-- kara.s:828-929 -/
def kara_strd_mem_asm_8 : List Ins := [
  .op2 .pkhtb .lr .fp .sl (.asr 16), .str .lr .r3 76 .off, .op2 .uadd16 .ip .ip .lr .id, .str .ip .r1 76 .off, .ldr .r4 .r2 32 .off,
  .ldr .r5 .r2 36 .off, .ldr .r6 .r2 40 .off, .ldr .r7 .r2 44 .off, .ldr .r8 .r2 48 .off, .ldr .r9 .r2 52 .off, .ldr .sl .r2 56 .off,
  .ldr .fp .r2 60 .off, .op2 .pkhbt .ip .r4 .r5 (.lsl 16), .str .ip .r1 16 .off, .op2 .pkhtb .lr .r5 .r4 (.asr 16), .str .lr .r3 80 .off,
  .op2 .uadd16 .ip .ip .lr .id, .str .ip .r1 80 .off, .op2 .pkhbt .ip .r6 .r7 (.lsl 16), .str .ip .r1 20 .off,
  .op2 .pkhtb .lr .r7 .r6 (.asr 16), .str .lr .r3 84 .off, .op2 .uadd16 .ip .ip .lr .id, .str .ip .r1 84 .off,
  .op2 .pkhbt .ip .r8 .r9 (.lsl 16), .str .ip .r1 24 .off, .op2 .pkhtb .lr .r9 .r8 (.asr 16), .str .lr .r3 88 .off,
  .op2 .uadd16 .ip .ip .lr .id, .str .ip .r1 88 .off, .op2 .pkhbt .ip .sl .fp (.lsl 16), .str .ip .r1 28 .off,
  .op2 .pkhtb .lr .fp .sl (.asr 16), .str .lr .r3 92 .off, .op2 .uadd16 .ip .ip .lr .id, .str .ip .r1 92 .off, .ldr .r4 .r0 64 .off,
  .ldr .r5 .r0 68 .off, .ldr .r6 .r0 72 .off, .ldr .r7 .r0 76 .off, .ldr .r8 .r0 80 .off, .ldr .r9 .r0 84 .off, .ldr .sl .r0 88 .off,
  .ldr .fp .r0 92 .off, .op2 .pkhbt .ip .r4 .r5 (.lsl 16), .str .ip .r1 32 .off, .op2 .pkhtb .lr .r5 .r4 (.asr 16), .str .lr .r3 96 .off,
  .op2 .uadd16 .ip .ip .lr .id, .str .ip .r1 96 .off, .op2 .pkhbt .ip .r6 .r7 (.lsl 16), .str .ip .r1 36 .off,
  .op2 .pkhtb .lr .r7 .r6 (.asr 16), .str .lr .r3 100 .off, .op2 .uadd16 .ip .ip .lr .id, .str .ip .r1 100 .off,
  .op2 .pkhbt .ip .r8 .r9 (.lsl 16), .str .ip .r1 40 .off, .op2 .pkhtb .lr .r9 .r8 (.asr 16), .str .lr .r3 104 .off,
  .op2 .uadd16 .ip .ip .lr .id, .str .ip .r1 104 .off, .op2 .pkhbt .ip .sl .fp (.lsl 16), .str .ip .r1 44 .off,
  .op2 .pkhtb .lr .fp .sl (.asr 16), .str .lr .r3 108 .off, .op2 .uadd16 .ip .ip .lr .id, .str .ip .r1 108 .off, .ldr .r4 .r0 96 .off,
  .ldr .r5 .r0 100 .off, .ldr .r6 .r0 104 .off, .ldr .r7 .r0 108 .off, .ldr .r8 .r0 112 .off, .ldr .r9 .r0 116 .off,
  .ldr .sl .r0 120 .off, .ldr .fp .r0 124 .off, .op2 .pkhbt .ip .r4 .r5 (.lsl 16), .str .ip .r1 48 .off,
  .op2 .pkhtb .lr .r5 .r4 (.asr 16), .str .lr .r3 112 .off, .op2 .uadd16 .ip .ip .lr .id, .str .ip .r1 112 .off,
  .op2 .pkhbt .ip .r6 .r7 (.lsl 16), .str .ip .r1 52 .off, .op2 .pkhtb .lr .r7 .r6 (.asr 16), .str .lr .r3 116 .off,
  .op2 .uadd16 .ip .ip .lr .id, .str .ip .r1 116 .off, .op2 .pkhbt .ip .r8 .r9 (.lsl 16), .str .ip .r1 56 .off,
  .op2 .pkhtb .lr .r9 .r8 (.asr 16), .str .lr .r3 120 .off, .op2 .uadd16 .ip .ip .lr .id, .str .ip .r1 120 .off,
  .op2 .pkhbt .ip .sl .fp (.lsl 16), .str .ip .r1 60 .off, .op2 .pkhtb .lr .fp .sl (.asr 16), .str .lr .r3 124 .off,
  .op2 .uadd16 .ip .ip .lr .id, .str .ip .r1 124 .off, .push [.r0, .r1, .r2, .r3], .op1 .id .r0 .r2]

/-- kara.s:931-932 -/
def kara_strd_mem_asm_9 : List Ins := [
  .addi .r1 .r1 64, .addi .r0 .r0 32]

/-- kara.s:934-936 -/
def kara_strd_mem_asm_10 : List Ins := [
  .ldr .ip .sp 12 .off, .addi .r0 .r1 (-64), .addi .r1 .ip 64]

/-- kara.s:938-1057 -/
def kara_strd_mem_asm_11 : List Ins := [
  .pop [.r0, .r1, .r2, .r3], .ldr .r4 .r2 0 .off, .ldr .r5 .r2 4 .off, .ldr .r6 .r2 32 .off, .ldr .r7 .r2 36 .off, .ldr .r8 .r1 0 .off,
  .ldr .r9 .r1 4 .off, .ldr .fp .r1 2 .off, .op2 .usub16 .r6 .r6 .r4 .id, .op2 .usub16 .r7 .r7 .r5 .id, .op2 .usub16 .r6 .r6 .r8 .id,
  .op2 .usub16 .r7 .r7 .r9 .id, .op1 (.lsl 16) .sl .r8, .op2 .uadd16 .r4 .r4 .sl .id, .op2 .uadd16 .r5 .r5 .fp .id,
  .op2 .pkhbt .ip .r4 .r6 (.lsl 16), .str .ip .r0 64 .off, .op2 .pkhtb .ip .r6 .r4 (.asr 16), .str .ip .r0 68 .off,
  .op2 .pkhbt .ip .r5 .r7 (.lsl 16), .str .ip .r0 72 .off, .op2 .pkhtb .ip .r7 .r5 (.asr 16), .str .ip .r0 76 .off, .ldr .r4 .r2 8 .off,
  .ldr .r5 .r2 12 .off, .ldr .r6 .r2 40 .off, .ldr .r7 .r2 44 .off, .ldr .r8 .r1 8 .off, .ldr .r9 .r1 12 .off, .ldr .sl .r1 6 .off,
  .ldr .fp .r1 10 .off, .op2 .usub16 .r6 .r6 .r4 .id, .op2 .usub16 .r7 .r7 .r5 .id, .op2 .usub16 .r6 .r6 .r8 .id,
  .op2 .usub16 .r7 .r7 .r9 .id, .op2 .uadd16 .r4 .r4 .sl .id, .op2 .uadd16 .r5 .r5 .fp .id, .op2 .pkhbt .ip .r4 .r6 (.lsl 16),
  .str .ip .r0 80 .off, .op2 .pkhtb .ip .r6 .r4 (.asr 16), .str .ip .r0 84 .off, .op2 .pkhbt .ip .r5 .r7 (.lsl 16), .str .ip .r0 88 .off,
  .op2 .pkhtb .ip .r7 .r5 (.asr 16), .str .ip .r0 92 .off, .ldr .r4 .r2 16 .off, .ldr .r5 .r2 20 .off, .ldr .r6 .r2 48 .off,
  .ldr .r7 .r2 52 .off, .ldr .r8 .r1 16 .off, .ldr .r9 .r1 20 .off, .ldr .sl .r1 14 .off, .ldr .fp .r1 18 .off,
  .op2 .usub16 .r6 .r6 .r4 .id, .op2 .usub16 .r7 .r7 .r5 .id, .op2 .usub16 .r6 .r6 .r8 .id, .op2 .usub16 .r7 .r7 .r9 .id,
  .op2 .uadd16 .r4 .r4 .sl .id, .op2 .uadd16 .r5 .r5 .fp .id, .op2 .pkhbt .ip .r4 .r6 (.lsl 16), .str .ip .r0 96 .off,
  .op2 .pkhtb .ip .r6 .r4 (.asr 16), .str .ip .r0 100 .off, .op2 .pkhbt .ip .r5 .r7 (.lsl 16), .str .ip .r0 104 .off,
  .op2 .pkhtb .ip .r7 .r5 (.asr 16), .str .ip .r0 108 .off, .ldr .r4 .r2 24 .off, .ldr .r5 .r2 28 .off, .ldr .r6 .r2 56 .off,
  .ldr .r7 .r2 60 .off, .ldr .r8 .r1 24 .off, .ldr .r9 .r1 28 .off, .ldr .sl .r1 22 .off, .ldr .fp .r1 26 .off,
  .op2 .usub16 .r6 .r6 .r4 .id, .op2 .usub16 .r7 .r7 .r5 .id, .op2 .usub16 .r6 .r6 .r8 .id, .op2 .usub16 .r7 .r7 .r9 .id,
  .op2 .uadd16 .r4 .r4 .sl .id, .op2 .uadd16 .r5 .r5 .fp .id, .op2 .pkhbt .ip .r4 .r6 (.lsl 16), .str .ip .r0 112 .off,
  .op2 .pkhtb .ip .r6 .r4 (.asr 16), .str .ip .r0 116 .off, .ldrh .r4 .r0 64 .off, .op2 .pkhbt .ip .r5 .r7 (.lsl 16),
  .str .ip .r0 120 .off, .op2 .pkhtb .ip .r7 .r5 (.asr 16), .str .ip .r0 124 .off, .op2 .sub .ip .r4 .r9 (.asr 16),
  .strh .ip .r0 64 .off, .ldr .r4 .r2 64 .off, .ldr .r5 .r2 68 .off, .ldr .r6 .r2 72 .off, .ldr .r7 .r2 76 .off, .ldr .r8 .r2 80 .off,
  .ldr .r9 .r2 84 .off, .ldr .sl .r2 88 .off, .ldr .fp .r2 92 .off, .op2 .pkhbt .ip .r4 .r5 (.lsl 16), .str .ip .r1 0 .off,
  .op2 .pkhtb .lr .r5 .r4 (.asr 16), .str .lr .r3 64 .off, .op2 .uadd16 .ip .ip .lr .id, .str .ip .r1 64 .off,
  .op2 .pkhbt .ip .r6 .r7 (.lsl 16), .str .ip .r1 4 .off, .op2 .pkhtb .lr .r7 .r6 (.asr 16), .str .lr .r3 68 .off,
  .op2 .uadd16 .ip .ip .lr .id, .str .ip .r1 68 .off, .op2 .pkhbt .ip .r8 .r9 (.lsl 16), .str .ip .r1 8 .off,
  .op2 .pkhtb .lr .r9 .r8 (.asr 16), .str .lr .r3 72 .off, .op2 .uadd16 .ip .ip .lr .id, .str .ip .r1 72 .off,
  .op2 .pkhbt .ip .sl .fp (.lsl 16), .str .ip .r1 12 .off]

/-- kara.s:1058-1159 -/
def kara_strd_mem_asm_12 : List Ins := [
  .op2 .pkhtb .lr .fp .sl (.asr 16), .str .lr .r3 76 .off, .op2 .uadd16 .ip .ip .lr .id, .str .ip .r1 76 .off, .ldr .r4 .r2 96 .off,
  .ldr .r5 .r2 100 .off, .ldr .r6 .r2 104 .off, .ldr .r7 .r2 108 .off, .ldr .r8 .r2 112 .off, .ldr .r9 .r2 116 .off,
  .ldr .sl .r2 120 .off, .ldr .fp .r2 124 .off, .op2 .pkhbt .ip .r4 .r5 (.lsl 16), .str .ip .r1 16 .off,
  .op2 .pkhtb .lr .r5 .r4 (.asr 16), .str .lr .r3 80 .off, .op2 .uadd16 .ip .ip .lr .id, .str .ip .r1 80 .off,
  .op2 .pkhbt .ip .r6 .r7 (.lsl 16), .str .ip .r1 20 .off, .op2 .pkhtb .lr .r7 .r6 (.asr 16), .str .lr .r3 84 .off,
  .op2 .uadd16 .ip .ip .lr .id, .str .ip .r1 84 .off, .op2 .pkhbt .ip .r8 .r9 (.lsl 16), .str .ip .r1 24 .off,
  .op2 .pkhtb .lr .r9 .r8 (.asr 16), .str .lr .r3 88 .off, .op2 .uadd16 .ip .ip .lr .id, .str .ip .r1 88 .off,
  .op2 .pkhbt .ip .sl .fp (.lsl 16), .str .ip .r1 28 .off, .op2 .pkhtb .lr .fp .sl (.asr 16), .str .lr .r3 92 .off,
  .op2 .uadd16 .ip .ip .lr .id, .str .ip .r1 92 .off, .ldr .r4 .r3 0 .off, .ldr .r5 .r3 4 .off, .ldr .r6 .r3 8 .off,
  .ldr .r7 .r3 12 .off, .ldr .r8 .r3 16 .off, .ldr .r9 .r3 20 .off, .ldr .sl .r3 24 .off, .ldr .fp .r3 28 .off,
  .op2 .pkhbt .ip .r4 .r5 (.lsl 16), .str .ip .r1 32 .off, .op2 .pkhtb .lr .r5 .r4 (.asr 16), .str .lr .r3 96 .off,
  .op2 .uadd16 .ip .ip .lr .id, .str .ip .r1 96 .off, .op2 .pkhbt .ip .r6 .r7 (.lsl 16), .str .ip .r1 36 .off,
  .op2 .pkhtb .lr .r7 .r6 (.asr 16), .str .lr .r3 100 .off, .op2 .uadd16 .ip .ip .lr .id, .str .ip .r1 100 .off,
  .op2 .pkhbt .ip .r8 .r9 (.lsl 16), .str .ip .r1 40 .off, .op2 .pkhtb .lr .r9 .r8 (.asr 16), .str .lr .r3 104 .off,
  .op2 .uadd16 .ip .ip .lr .id, .str .ip .r1 104 .off, .op2 .pkhbt .ip .sl .fp (.lsl 16), .str .ip .r1 44 .off,
  .op2 .pkhtb .lr .fp .sl (.asr 16), .str .lr .r3 108 .off, .op2 .uadd16 .ip .ip .lr .id, .str .ip .r1 108 .off, .ldr .r4 .r3 32 .off,
  .ldr .r5 .r3 36 .off, .ldr .r6 .r3 40 .off, .ldr .r7 .r3 44 .off, .ldr .r8 .r3 48 .off, .ldr .r9 .r3 52 .off, .ldr .sl .r3 56 .off,
  .ldr .fp .r3 60 .off, .op2 .pkhbt .ip .r4 .r5 (.lsl 16), .str .ip .r1 48 .off, .op2 .pkhtb .lr .r5 .r4 (.asr 16),
  .str .lr .r3 112 .off, .op2 .uadd16 .ip .ip .lr .id, .str .ip .r1 112 .off, .op2 .pkhbt .ip .r6 .r7 (.lsl 16), .str .ip .r1 52 .off,
  .op2 .pkhtb .lr .r7 .r6 (.asr 16), .str .lr .r3 116 .off, .op2 .uadd16 .ip .ip .lr .id, .str .ip .r1 116 .off,
  .op2 .pkhbt .ip .r8 .r9 (.lsl 16), .str .ip .r1 56 .off, .op2 .pkhtb .lr .r9 .r8 (.asr 16), .str .lr .r3 120 .off,
  .op2 .uadd16 .ip .ip .lr .id, .str .ip .r1 120 .off, .op2 .pkhbt .ip .sl .fp (.lsl 16), .str .ip .r1 60 .off,
  .op2 .pkhtb .lr .fp .sl (.asr 16), .str .lr .r3 124 .off, .op2 .uadd16 .ip .ip .lr .id, .str .ip .r1 124 .off,
  .push [.r0, .r1, .r2, .r3], .op1 .id .r0 .r2]

/-- kara.s:1161-1162 -/
def kara_strd_mem_asm_13 : List Ins := [
  .addi .r1 .r1 64, .addi .r0 .r0 32]

/-- kara.s:1164-1166 -/
def kara_strd_mem_asm_14 : List Ins := [
  .ldr .ip .sp 12 .off, .addi .r0 .r1 (-64), .addi .r1 .ip 64]

/-- kara.s:1168-1287 -/
def kara_strd_mem_asm_15 : List Ins := [
  .pop [.r0, .r1, .r2, .r3], .ldr .r4 .r2 0 .off, .ldr .r5 .r2 4 .off, .ldr .r6 .r2 32 .off, .ldr .r7 .r2 36 .off, .ldr .r8 .r1 0 .off,
  .ldr .r9 .r1 4 .off, .ldr .fp .r1 2 .off, .op2 .usub16 .r6 .r6 .r4 .id, .op2 .usub16 .r7 .r7 .r5 .id, .op2 .usub16 .r6 .r6 .r8 .id,
  .op2 .usub16 .r7 .r7 .r9 .id, .op1 (.lsl 16) .sl .r8, .op2 .uadd16 .r4 .r4 .sl .id, .op2 .uadd16 .r5 .r5 .fp .id,
  .op2 .pkhbt .ip .r4 .r6 (.lsl 16), .str .ip .r1 64 .off, .op2 .pkhtb .ip .r6 .r4 (.asr 16), .str .ip .r1 68 .off,
  .op2 .pkhbt .ip .r5 .r7 (.lsl 16), .str .ip .r1 72 .off, .op2 .pkhtb .ip .r7 .r5 (.asr 16), .str .ip .r1 76 .off, .ldr .r4 .r2 8 .off,
  .ldr .r5 .r2 12 .off, .ldr .r6 .r2 40 .off, .ldr .r7 .r2 44 .off, .ldr .r8 .r1 8 .off, .ldr .r9 .r1 12 .off, .ldr .sl .r1 6 .off,
  .ldr .fp .r1 10 .off, .op2 .usub16 .r6 .r6 .r4 .id, .op2 .usub16 .r7 .r7 .r5 .id, .op2 .usub16 .r6 .r6 .r8 .id,
  .op2 .usub16 .r7 .r7 .r9 .id, .op2 .uadd16 .r4 .r4 .sl .id, .op2 .uadd16 .r5 .r5 .fp .id, .op2 .pkhbt .ip .r4 .r6 (.lsl 16),
  .str .ip .r1 80 .off, .op2 .pkhtb .ip .r6 .r4 (.asr 16), .str .ip .r1 84 .off, .op2 .pkhbt .ip .r5 .r7 (.lsl 16), .str .ip .r1 88 .off,
  .op2 .pkhtb .ip .r7 .r5 (.asr 16), .str .ip .r1 92 .off, .ldr .r4 .r2 16 .off, .ldr .r5 .r2 20 .off, .ldr .r6 .r2 48 .off,
  .ldr .r7 .r2 52 .off, .ldr .r8 .r1 16 .off, .ldr .r9 .r1 20 .off, .ldr .sl .r1 14 .off, .ldr .fp .r1 18 .off,
  .op2 .usub16 .r6 .r6 .r4 .id, .op2 .usub16 .r7 .r7 .r5 .id, .op2 .usub16 .r6 .r6 .r8 .id, .op2 .usub16 .r7 .r7 .r9 .id,
  .op2 .uadd16 .r4 .r4 .sl .id, .op2 .uadd16 .r5 .r5 .fp .id, .op2 .pkhbt .ip .r4 .r6 (.lsl 16), .str .ip .r1 96 .off,
  .op2 .pkhtb .ip .r6 .r4 (.asr 16), .str .ip .r1 100 .off, .op2 .pkhbt .ip .r5 .r7 (.lsl 16), .str .ip .r1 104 .off,
  .op2 .pkhtb .ip .r7 .r5 (.asr 16), .str .ip .r1 108 .off, .ldr .r4 .r2 24 .off, .ldr .r5 .r2 28 .off, .ldr .r6 .r2 56 .off,
  .ldr .r7 .r2 60 .off, .ldr .r8 .r1 24 .off, .ldr .r9 .r1 28 .off, .ldr .sl .r1 22 .off, .ldr .fp .r1 26 .off,
  .op2 .usub16 .r6 .r6 .r4 .id, .op2 .usub16 .r7 .r7 .r5 .id, .op2 .usub16 .r6 .r6 .r8 .id, .op2 .usub16 .r7 .r7 .r9 .id,
  .op2 .uadd16 .r4 .r4 .sl .id, .op2 .uadd16 .r5 .r5 .fp .id, .op2 .pkhbt .ip .r4 .r6 (.lsl 16), .str .ip .r1 112 .off,
  .op2 .pkhtb .ip .r6 .r4 (.asr 16), .str .ip .r1 116 .off, .ldrh .r4 .r1 64 .off, .op2 .pkhbt .ip .r5 .r7 (.lsl 16),
  .str .ip .r1 120 .off, .op2 .pkhtb .ip .r7 .r5 (.asr 16), .str .ip .r1 124 .off, .op2 .sub .ip .r4 .r9 (.asr 16),
  .strh .ip .r1 64 .off, .ldr .r4 .r0 0 .off, .ldr .r5 .r0 4 .off, .ldr .r6 .r0 64 .off, .ldr .r7 .r0 68 .off, .ldr .r8 .r1 64 .off,
  .ldr .r9 .r1 68 .off, .ldr .fp .r1 66 .off, .op2 .usub16 .r6 .r6 .r4 .id, .op2 .usub16 .r7 .r7 .r5 .id, .op2 .usub16 .r6 .r6 .r8 .id,
  .op2 .usub16 .r7 .r7 .r9 .id, .op1 (.lsl 16) .sl .r8, .op2 .uadd16 .r4 .r4 .sl .id, .op2 .uadd16 .r5 .r5 .fp .id,
  .op2 .pkhbt .ip .r4 .r6 (.lsl 16), .str .ip .r2 0 .off, .op2 .pkhtb .ip .r6 .r4 (.asr 16), .str .ip .r2 4 .off,
  .op2 .pkhbt .ip .r5 .r7 (.lsl 16), .str .ip .r2 8 .off, .op2 .pkhtb .ip .r7 .r5 (.asr 16), .str .ip .r2 12 .off, .ldr .r4 .r0 8 .off,
  .ldr .r5 .r0 12 .off, .ldr .r6 .r0 72 .off, .ldr .r7 .r0 76 .off, .ldr .r8 .r1 72 .off, .ldr .r9 .r1 76 .off]

/-- kara.s:1288-1407 -/
def kara_strd_mem_asm_16 : List Ins := [
  .ldr .sl .r1 70 .off, .ldr .fp .r1 74 .off, .op2 .usub16 .r6 .r6 .r4 .id, .op2 .usub16 .r7 .r7 .r5 .id, .op2 .usub16 .r6 .r6 .r8 .id,
  .op2 .usub16 .r7 .r7 .r9 .id, .op2 .uadd16 .r4 .r4 .sl .id, .op2 .uadd16 .r5 .r5 .fp .id, .op2 .pkhbt .ip .r4 .r6 (.lsl 16),
  .str .ip .r2 16 .off, .op2 .pkhtb .ip .r6 .r4 (.asr 16), .str .ip .r2 20 .off, .op2 .pkhbt .ip .r5 .r7 (.lsl 16), .str .ip .r2 24 .off,
  .op2 .pkhtb .ip .r7 .r5 (.asr 16), .str .ip .r2 28 .off, .ldr .r4 .r0 16 .off, .ldr .r5 .r0 20 .off, .ldr .r6 .r0 80 .off,
  .ldr .r7 .r0 84 .off, .ldr .r8 .r1 80 .off, .ldr .r9 .r1 84 .off, .ldr .sl .r1 78 .off, .ldr .fp .r1 82 .off,
  .op2 .usub16 .r6 .r6 .r4 .id, .op2 .usub16 .r7 .r7 .r5 .id, .op2 .usub16 .r6 .r6 .r8 .id, .op2 .usub16 .r7 .r7 .r9 .id,
  .op2 .uadd16 .r4 .r4 .sl .id, .op2 .uadd16 .r5 .r5 .fp .id, .op2 .pkhbt .ip .r4 .r6 (.lsl 16), .str .ip .r2 32 .off,
  .op2 .pkhtb .ip .r6 .r4 (.asr 16), .str .ip .r2 36 .off, .op2 .pkhbt .ip .r5 .r7 (.lsl 16), .str .ip .r2 40 .off,
  .op2 .pkhtb .ip .r7 .r5 (.asr 16), .str .ip .r2 44 .off, .ldr .r4 .r0 24 .off, .ldr .r5 .r0 28 .off, .ldr .r6 .r0 88 .off,
  .ldr .r7 .r0 92 .off, .ldr .r8 .r1 88 .off, .ldr .r9 .r1 92 .off, .ldr .sl .r1 86 .off, .ldr .fp .r1 90 .off,
  .op2 .usub16 .r6 .r6 .r4 .id, .op2 .usub16 .r7 .r7 .r5 .id, .op2 .usub16 .r6 .r6 .r8 .id, .op2 .usub16 .r7 .r7 .r9 .id,
  .op2 .uadd16 .r4 .r4 .sl .id, .op2 .uadd16 .r5 .r5 .fp .id, .op2 .pkhbt .ip .r4 .r6 (.lsl 16), .str .ip .r2 48 .off,
  .op2 .pkhtb .ip .r6 .r4 (.asr 16), .str .ip .r2 52 .off, .op2 .pkhbt .ip .r5 .r7 (.lsl 16), .str .ip .r2 56 .off,
  .op2 .pkhtb .ip .r7 .r5 (.asr 16), .str .ip .r2 60 .off, .ldr .r4 .r0 32 .off, .ldr .r5 .r0 36 .off, .ldr .r6 .r0 96 .off,
  .ldr .r7 .r0 100 .off, .ldr .r8 .r1 96 .off, .ldr .r9 .r1 100 .off, .ldr .sl .r1 94 .off, .ldr .fp .r1 98 .off,
  .op2 .usub16 .r6 .r6 .r4 .id, .op2 .usub16 .r7 .r7 .r5 .id, .op2 .usub16 .r6 .r6 .r8 .id, .op2 .usub16 .r7 .r7 .r9 .id,
  .op2 .uadd16 .r4 .r4 .sl .id, .op2 .uadd16 .r5 .r5 .fp .id, .op2 .pkhbt .ip .r4 .r6 (.lsl 16), .str .ip .r2 64 .off,
  .op2 .pkhtb .ip .r6 .r4 (.asr 16), .str .ip .r2 68 .off, .op2 .pkhbt .ip .r5 .r7 (.lsl 16), .str .ip .r2 72 .off,
  .op2 .pkhtb .ip .r7 .r5 (.asr 16), .str .ip .r2 76 .off, .ldr .r4 .r0 40 .off, .ldr .r5 .r0 44 .off, .ldr .r6 .r0 104 .off,
  .ldr .r7 .r0 108 .off, .ldr .r8 .r1 104 .off, .ldr .r9 .r1 108 .off, .ldr .sl .r1 102 .off, .ldr .fp .r1 106 .off,
  .op2 .usub16 .r6 .r6 .r4 .id, .op2 .usub16 .r7 .r7 .r5 .id, .op2 .usub16 .r6 .r6 .r8 .id, .op2 .usub16 .r7 .r7 .r9 .id,
  .op2 .uadd16 .r4 .r4 .sl .id, .op2 .uadd16 .r5 .r5 .fp .id, .op2 .pkhbt .ip .r4 .r6 (.lsl 16), .str .ip .r2 80 .off,
  .op2 .pkhtb .ip .r6 .r4 (.asr 16), .str .ip .r2 84 .off, .op2 .pkhbt .ip .r5 .r7 (.lsl 16), .str .ip .r2 88 .off,
  .op2 .pkhtb .ip .r7 .r5 (.asr 16), .str .ip .r2 92 .off, .ldr .r4 .r0 48 .off, .ldr .r5 .r0 52 .off, .ldr .r6 .r0 112 .off,
  .ldr .r7 .r0 116 .off, .ldr .r8 .r1 112 .off, .ldr .r9 .r1 116 .off, .ldr .sl .r1 110 .off, .ldr .fp .r1 114 .off,
  .op2 .usub16 .r6 .r6 .r4 .id, .op2 .usub16 .r7 .r7 .r5 .id, .op2 .usub16 .r6 .r6 .r8 .id, .op2 .usub16 .r7 .r7 .r9 .id,
  .op2 .uadd16 .r4 .r4 .sl .id, .op2 .uadd16 .r5 .r5 .fp .id, .op2 .pkhbt .ip .r4 .r6 (.lsl 16), .str .ip .r2 96 .off]

/-- kara.s:1408-1440 -/
def kara_strd_mem_asm_17 : List Ins := [
  .op2 .pkhtb .ip .r6 .r4 (.asr 16), .str .ip .r2 100 .off, .op2 .pkhbt .ip .r5 .r7 (.lsl 16), .str .ip .r2 104 .off,
  .op2 .pkhtb .ip .r7 .r5 (.asr 16), .str .ip .r2 108 .off, .ldr .r4 .r0 56 .off, .ldr .r5 .r0 60 .off, .ldr .r6 .r0 120 .off,
  .ldr .r7 .r0 124 .off, .ldr .r8 .r1 120 .off, .ldr .r9 .r1 124 .off, .ldr .sl .r1 118 .off, .ldr .fp .r1 122 .off,
  .op2 .usub16 .r6 .r6 .r4 .id, .op2 .usub16 .r7 .r7 .r5 .id, .op2 .usub16 .r6 .r6 .r8 .id, .op2 .usub16 .r7 .r7 .r9 .id,
  .op2 .uadd16 .r4 .r4 .sl .id, .op2 .uadd16 .r5 .r5 .fp .id, .op2 .pkhbt .ip .r4 .r6 (.lsl 16), .str .ip .r2 112 .off,
  .op2 .pkhtb .ip .r6 .r4 (.asr 16), .str .ip .r2 116 .off, .ldrh .r4 .r2 0 .off, .op2 .pkhbt .ip .r5 .r7 (.lsl 16),
  .str .ip .r2 120 .off, .op2 .pkhtb .ip .r7 .r5 (.asr 16), .str .ip .r2 124 .off, .op2 .sub .ip .r4 .r9 (.asr 16), .strh .ip .r2 0 .off,
  .pop [.r4, .r5, .r6, .r7, .r8, .r9, .sl, .fp, .lr], .bx .lr]

/-- `kara_strd_mem_asm` (kara.s:310-1440) -/
def kara_strd_mem_asm : List Stmt := [
  .ins kara_strd_mem_asm_1, .ins kara_strd_mem_asm_2, .ins kara_strd_mem_asm_3, .ins kara_strd_mem_asm_4, .call 0, .ins kara_strd_mem_asm_5, .call 0, .ins kara_strd_mem_asm_6, .call 0, .ins kara_strd_mem_asm_7, .ins kara_strd_mem_asm_8, .call 0, .ins kara_strd_mem_asm_9, .call 0, .ins kara_strd_mem_asm_10, .call 0, .ins kara_strd_mem_asm_11, .ins kara_strd_mem_asm_12, .call 0, .ins kara_strd_mem_asm_13, .call 0, .ins kara_strd_mem_asm_14, .call 0, .ins kara_strd_mem_asm_15, .ins kara_strd_mem_asm_16, .ins kara_strd_mem_asm_17]

end Saber.Arm
