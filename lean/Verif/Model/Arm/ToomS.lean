import Verif.Model.Arm.Machine
/-!
# `Cortex-M4/src/*/m4-tc4kara/asm_funcs.S`

The instructions of the file, in order.  Functions are cut at labels, branches and calls.
-/
namespace Saber.Arm
/-- asm_funcs.S:13-20 -/
def toom_cook_4way_mem_asm_1 : List Ins := [
  .push [.r3, .r4, .r5, .r6, .r7, .r8, .r9, .sl, .fp, .ip, .lr], .addi .sp .sp (-3076), .op1 .id .r3 .sp, .op1 .id .fp .r2,
  .addi .r2 .r3 1792, .addi .ip .r0 128]

/-- asm_funcs.S:22-50 -/
def toom_cook_4way_mem_asm_2 : List Ins := [
  .ldr .r6 .r0 384 .off, .ldr .r4 .r0 128 .off, .ldr .r5 .r0 256 .off, .ldr .r3 .r0 4 .post, .cmp .r0 .ip, .op2 .uadd16 .r8 .r4 .r6 .id,
  .op2 .uadd16 .r7 .r3 .r5 .id, .op2 .uadd16 .r9 .r7 .r8 .id, .op2 .usub16 .sl .r7 .r8 .id, .str .r9 .r2 128 .off, .str .sl .r2 256 .off,
  .op2 .uadd16 .r7 .r3 .r3 .id, .op2 .uadd16 .r7 .r7 .r7 .id, .op2 .uadd16 .r7 .r7 .r5 .id, .op2 .uadd16 .r7 .r7 .r7 .id,
  .op2 .uadd16 .r8 .r4 .r4 .id, .op2 .uadd16 .r8 .r8 .r8 .id, .op2 .uadd16 .r8 .r8 .r6 .id, .op2 .uadd16 .r9 .r7 .r8 .id,
  .op2 .usub16 .sl .r7 .r8 .id, .str .r9 .r2 384 .off, .str .sl .r2 512 .off, .op2 .uadd16 .r7 .r6 .r6 .id, .op2 .uadd16 .r7 .r7 .r5 .id,
  .op2 .uadd16 .r7 .r7 .r7 .id, .op2 .uadd16 .r7 .r7 .r4 .id, .op2 .uadd16 .r7 .r7 .r7 .id, .op2 .uadd16 .r7 .r7 .r3 .id,
  .str .r7 .r2 4 .post]

/-- asm_funcs.S:53-54 -/
def toom_cook_4way_mem_asm_3 : List Ins := [
  .addi .ip .r1 128, .addi .r2 .r2 512]

/-- asm_funcs.S:56-84 -/
def toom_cook_4way_mem_asm_4 : List Ins := [
  .ldr .r6 .r1 384 .off, .ldr .r4 .r1 128 .off, .ldr .r5 .r1 256 .off, .ldr .r3 .r1 4 .post, .cmp .r1 .ip, .op2 .uadd16 .r8 .r4 .r6 .id,
  .op2 .uadd16 .r7 .r3 .r5 .id, .op2 .uadd16 .r9 .r7 .r8 .id, .op2 .usub16 .sl .r7 .r8 .id, .str .r9 .r2 128 .off, .str .sl .r2 256 .off,
  .op2 .uadd16 .r7 .r3 .r3 .id, .op2 .uadd16 .r7 .r7 .r7 .id, .op2 .uadd16 .r7 .r7 .r5 .id, .op2 .uadd16 .r7 .r7 .r7 .id,
  .op2 .uadd16 .r8 .r4 .r4 .id, .op2 .uadd16 .r8 .r8 .r8 .id, .op2 .uadd16 .r8 .r8 .r6 .id, .op2 .uadd16 .r9 .r7 .r8 .id,
  .op2 .usub16 .sl .r7 .r8 .id, .str .r9 .r2 384 .off, .str .sl .r2 512 .off, .op2 .uadd16 .r7 .r6 .r6 .id, .op2 .uadd16 .r7 .r7 .r5 .id,
  .op2 .uadd16 .r7 .r7 .r7 .id, .op2 .uadd16 .r7 .r7 .r4 .id, .op2 .uadd16 .r7 .r7 .r7 .id, .op2 .uadd16 .r7 .r7 .r3 .id,
  .str .r7 .r2 4 .post]

/-- asm_funcs.S:87-92 -/
def toom_cook_4way_mem_asm_5 : List Ins := [
  .op1 .id .r9 .fp, .op1 .id .fp .r0, .op1 .id .r4 .r1, .addi .r0 .r2 (-2560), .movi .r1 0, .movi .r2 1792]

/-- asm_funcs.S:94-99 -/
def toom_cook_4way_mem_asm_6 : List Ins := [
  .op1 .id .sl .r0, .addi .r2 .fp (-128), .addi .r1 .r4 (-128), .addi .r0 .sl 1536, .push [.r4, .r9, .sl, .fp]]

/-- asm_funcs.S:102-107 -/
def toom_cook_4way_mem_asm_7 : List Ins := [
  .pop [.r4, .r9, .sl, .fp], .addi .r2 .fp 256, .addi .r1 .r4 256, .op1 .id .r0 .sl, .push [.r9, .sl]]

/-- asm_funcs.S:110-115 -/
def toom_cook_4way_mem_asm_8 : List Ins := [
  .pop [.r9, .sl], .addi .r2 .sl 2304, .addi .r1 .sl 2944, .addi .r0 .sl 1280, .push [.r9, .sl]]

/-- asm_funcs.S:118-123 -/
def toom_cook_4way_mem_asm_9 : List Ins := [
  .pop [.r9, .sl], .addi .r2 .sl 2176, .addi .r1 .sl 2816, .addi .r0 .sl 1024, .push [.r9, .sl]]

/-- asm_funcs.S:126-131 -/
def toom_cook_4way_mem_asm_10 : List Ins := [
  .pop [.r9, .sl], .addi .r2 .sl 2048, .addi .r1 .sl 2688, .addi .r0 .sl 768, .push [.r9, .sl]]

/-- asm_funcs.S:134-139 -/
def toom_cook_4way_mem_asm_11 : List Ins := [
  .pop [.r9, .sl], .addi .r2 .sl 1920, .addi .r1 .sl 2560, .addi .r0 .sl 512, .push [.r9, .sl]]

/-- asm_funcs.S:142-147 -/
def toom_cook_4way_mem_asm_12 : List Ins := [
  .pop [.r9, .sl], .addi .r2 .sl 1792, .addi .r1 .sl 2432, .addi .r0 .sl 256, .push [.r9, .sl]]

/-- asm_funcs.S:150-164 -/
def toom_cook_4way_mem_asm_13 : List Ins := [
  .pop [.r9, .sl], .movi .lr 8191, .movi .r0 0, .movi .fp 128, .op2 .add .lr .lr .lr (.lsl 16)]

/-- asm_funcs.S:166-271 -/
def toom_cook_4way_mem_asm_14 : List Ins := [
  .ldr .r5 .sl 1024 .off, .ldr .r3 .sl 512 .off, .ldr .r2 .sl 256 .off, .ldr .r7 .sl 1536 .off, .ldr .r6 .sl 1280 .off,
  .ldr .r4 .sl 768 .off, .ldr .r1 .sl 4 .post, .op2 .uadd16 .r2 .r2 .r5 .id, .op2 .usub16 .r6 .r6 .r5 .id, .op2 .usub16 .r4 .r4 .r3 .id,
  .op2 .usub16 .r5 .r5 .r1 .id, .op1 (.lsr 16) .fp .r7, .op1 (.lsl 6) .ip .r7, .op2 .pkhbt .r8 .ip .fp (.lsl 22),
  .op2 .usub16 .r5 .r5 .r8 .id, .op1 (.lsl 16) .fp .r4, .op1 (.lsr 1) .ip .r4, .op2 .pkhtb .r4 .ip .fp (.asr 17),
  .op2 .uadd16 .r3 .r3 .r4 .id, .op1 (.lsr 16) .fp .r5, .op1 (.lsl 1) .ip .r5, .op2 .pkhbt .r8 .ip .fp (.lsl 17),
  .op2 .uadd16 .r5 .r6 .r8 .id, .op1 (.lsr 16) .fp .r3, .op1 (.lsl 6) .ip .r3, .op2 .pkhbt .r8 .ip .fp (.lsl 22),
  .op2 .uadd16 .r8 .r3 .r8 .id, .op2 .usub16 .r2 .r2 .r8 .id, .op2 .usub16 .r3 .r3 .r7 .id, .op2 .usub16 .r3 .r3 .r1 .id, .movi .r8 45,
  .op2 .smulbb .fp .r3 .r8 .id, .op2 .smultb .ip .r3 .r8 .id, .op2 .pkhbt .r8 .fp .ip (.lsl 16), .op2 .uadd16 .r2 .r2 .r8 .id,
  .op1 (.lsr 16) .fp .r3, .op1 (.lsl 3) .ip .r3, .op2 .pkhbt .r8 .ip .fp (.lsl 19), .op2 .usub16 .r5 .r5 .r8 .id, .movi .r8 43691,
  .op2 .smulbb .fp .r5 .r8 .id, .op2 .smultb .ip .r5 .r8 .id, .op2 .pkhbt .r8 .fp .ip (.lsl 16), .op1 (.lsl 16) .fp .r8,
  .op1 (.lsr 3) .ip .r8, .op2 .pkhtb .r5 .ip .fp (.asr 19), .op2 .uadd16 .r6 .r2 .r6 .id, .op1 (.lsr 16) .fp .r4, .op1 (.lsl 4) .ip .r4,
  .op2 .pkhbt .r8 .ip .fp (.lsl 20), .op2 .uadd16 .r2 .r2 .r8 .id, .movi .r8 36409, .op2 .smulbb .fp .r2 .r8 .id,
  .op2 .smultb .ip .r2 .r8 .id, .op2 .pkhbt .r8 .fp .ip (.lsl 16), .op1 (.lsl 16) .fp .r8, .op1 (.lsr 1) .ip .r8,
  .op2 .pkhtb .r2 .ip .fp (.asr 17), .op2 .usub16 .r3 .r3 .r5 .id, .op2 .uadd16 .r4 .r4 .r2 .id, .movi .r8 0,
  .op2 .usub16 .r4 .r8 .r4 .id, .movi .r8 30, .op2 .smulbb .fp .r2 .r8 .id, .op2 .smultb .ip .r2 .r8 .id,
  .op2 .pkhbt .r8 .fp .ip (.lsl 16), .op2 .usub16 .r6 .r8 .r6 .id, .movi .r8 61167, .op2 .smulbb .fp .r6 .r8 .id,
  .op2 .smultb .ip .r6 .r8 .id, .op2 .pkhbt .r8 .fp .ip (.lsl 16), .op1 (.lsl 16) .fp .r8, .op1 (.lsr 1) .ip .r8,
  .op2 .pkhtb .r6 .ip .fp (.asr 17), .op2 .usub16 .r7 .r7 .r3 .id, .op2 .usub16 .r6 .r6 .r2 .id, .op2 .usub16 .r5 .r5 .r1 .id,
  .ldr .r3 .r9 0 .off, .ldr .r2 .r9 128 .off, .ldr .r1 .r9 256 .off, .op2 .uadd16 .r7 .r7 .r3 .id, .op2 .uadd16 .r6 .r6 .r2 .id,
  .op2 .uadd16 .r5 .r5 .r1 .id, .op2 .and .r7 .r7 .lr .id, .op2 .and .r6 .r6 .lr .id, .op2 .and .r5 .r5 .lr .id, .cmpi .r0 63,
  .addi .r0 .r0 2, .addi .r1 .r9 (-128), .ls (.addi .r1 .r1 512), .ldr .r8 .r1 0 .off, .str .r5 .r9 256 .off, .str .r6 .r9 128 .off,
  .str .r7 .r9 4 .post, .op2 .usub16 .r3 .r8 .r4 .id, .ls (.op2 .uadd16 .r3 .r8 .r4 .id), .cmpi .r0 126, .op2 .and .r3 .r3 .lr .id,
  .str .r3 .r1 0 .off]

/-- asm_funcs.S:274-347 -/
def toom_cook_4way_mem_asm_15 : List Ins := [
  .ldrh .r5 .sl 1024 .off, .ldrh .r3 .sl 512 .off, .ldrh .r2 .sl 256 .off, .ldrh .r7 .sl 1536 .off, .ldrh .r6 .sl 1280 .off,
  .ldrh .r4 .sl 768 .off, .ldrh .r1 .sl 4 .post, .op2 .uadd16 .r2 .r2 .r5 .id, .op2 .usub16 .r6 .r6 .r5 .id,
  .op2 .usub16 .r4 .r4 .r3 .id, .op2 .usub16 .r5 .r5 .r1 .id, .op1 (.lsl 6) .r8 .r7, .op2 .usub16 .r5 .r5 .r8 .id, .op1 (.lsr 1) .r4 .r4,
  .op2 .uadd16 .r3 .r3 .r4 .id, .op1 (.lsl 1) .r8 .r5, .op2 .uadd16 .r5 .r6 .r8 .id, .op1 (.lsl 6) .r8 .r3, .op2 .uadd16 .r8 .r3 .r8 .id,
  .op2 .usub16 .r2 .r2 .r8 .id, .op2 .usub16 .r3 .r3 .r7 .id, .op2 .usub16 .r3 .r3 .r1 .id, .movi .r8 45, .op2 .smulbb .r8 .r3 .r8 .id,
  .op2 .uadd16 .r2 .r2 .r8 .id, .op1 (.lsl 3) .r8 .r3, .op2 .usub16 .r5 .r5 .r8 .id, .movi .r8 43691, .op2 .smulbb .r8 .r5 .r8 .id,
  .op1 (.lsr 3) .r5 .r8, .op2 .uadd16 .r6 .r2 .r6 .id, .op1 (.lsl 4) .r8 .r4, .op2 .uadd16 .r2 .r2 .r8 .id, .movi .r8 36409,
  .op2 .smulbb .r8 .r2 .r8 .id, .op1 (.lsr 1) .r2 .r8, .op2 .usub16 .r3 .r3 .r5 .id, .op2 .uadd16 .r4 .r4 .r2 .id, .movi .r8 0,
  .op2 .usub16 .r4 .r8 .r4 .id, .movi .r8 30, .op2 .smulbb .r8 .r2 .r8 .id, .op2 .usub16 .r6 .r8 .r6 .id, .movi .r8 61167,
  .op2 .smulbb .r8 .r6 .r8 .id, .op1 (.lsr 1) .r6 .r8, .op2 .usub16 .r7 .r7 .r3 .id, .op2 .usub16 .r6 .r6 .r2 .id,
  .op2 .usub16 .r5 .r5 .r1 .id, .ldrh .r3 .r9 0 .off, .ldrh .r2 .r9 128 .off, .ldrh .r1 .r9 256 .off, .op2 .uadd16 .r7 .r7 .r3 .id,
  .op2 .uadd16 .r6 .r6 .r2 .id, .op2 .uadd16 .r5 .r5 .r1 .id, .op1 (.ubfx 0 13) .r7 .r7, .op1 (.ubfx 0 13) .r6 .r6,
  .op1 (.ubfx 0 13) .r5 .r5, .cmpi .r0 63, .addi .r0 .r0 2, .addi .r1 .r9 (-128), .ls (.addi .r1 .r1 512), .ldr .r8 .r1 0 .off,
  .strh .r5 .r9 256 .off, .strh .r6 .r9 128 .off, .strh .r7 .r9 4 .post, .op2 .usub16 .r3 .r8 .r4 .id,
  .ls (.op2 .uadd16 .r3 .r8 .r4 .id), .cmpi .r0 126, .op1 (.ubfx 0 13) .r3 .r3, .strh .r3 .r1 0 .off]

/-- asm_funcs.S:349-350 -/
def toom_cook_4way_mem_asm_16 : List Ins := [
  .addi .sp .sp 3076, .pop [.r3, .r4, .r5, .r6, .r7, .r8, .r9, .sl, .fp, .ip, .pc]]

/-- `toom_cook_4way_mem_asm` (asm_funcs.S:11-351) -/
def toom_cook_4way_mem_asm : List Stmt := [
  .ins toom_cook_4way_mem_asm_1, .loop toom_cook_4way_mem_asm_2, .ins toom_cook_4way_mem_asm_3, .loop toom_cook_4way_mem_asm_4, .ins toom_cook_4way_mem_asm_5, .call 1, .ins toom_cook_4way_mem_asm_6, .call 0, .ins toom_cook_4way_mem_asm_7, .call 0, .ins toom_cook_4way_mem_asm_8, .call 0, .ins toom_cook_4way_mem_asm_9, .call 0, .ins toom_cook_4way_mem_asm_10, .call 0, .ins toom_cook_4way_mem_asm_11, .call 0, .ins toom_cook_4way_mem_asm_12, .call 0, .ins toom_cook_4way_mem_asm_13, .loop toom_cook_4way_mem_asm_14, .ins toom_cook_4way_mem_asm_15, .ins toom_cook_4way_mem_asm_16]

end Saber.Arm
