import Verif.Model.X4.Shifts
/-!
# `Variants/SaberX4_avx2/pack_unpack.c` and `BS2POLq4x`

Element `j` of the local arrays `avx_bytes` and `avx_data` holds element `j` of the first half of each of the four byte strings or
coefficient arrays in its lower 128 bits and element `j` of their second halves in its upper 128 bits.

The functions `old_…` and the functions for one byte string are not called and not modelled.
-/
namespace Saber.X4

/-- `SABER_K` (SABER_params.h; apiorig.h fixes `Saber_type` 2) -/
def K : Nat := 3

/-- The two groups of loads, the two transpositions and the four `insertf128` at pack_unpack.c:24-43, 209-228 and SABER_indcpa.c:159-178:
`l0_256 .. l3_256`; `ld l off` is the load of 16 bytes from the string or array `l` at `off`. -/
def loadBlock (ld : Fin 4 → Nat → CM V4) (off0 off1 : Fam Nat) : CM (Fam V8) := do
  let lo ← famM fun l => ld l (off0 l)
  let hi ← famM fun l => ld l (off1 l)
  let lo := TRANSPOSE4 lo
  let hi := TRANSPOSE4 hi
  .ok fun r => insertf128 (lo r) (hi r)

/-- `avx_load_16bit_8bit` (pack_unpack.c:9-60); `cfbs_l` points to element 0 of `data_l` and `cfbs_{4+l}` to `data_l[SABER_K/2][SABER_N/2]`
(pack_unpack.c:637-645, 848-856).  The new content of `avx_data` is returned. -/
def avx_load_16bit_8bit (data : Fam (List (List (BitVec 16)))) (avx_data : List V8) : CM (List V8) :=
  loop (K * N * 16 / (128 * 2)) avx_data fun i avx_data => do
    let l ← loadBlock (fun l => load_ps16 (data l)) (fun _ => 8 * i) (fun _ => K / 2 * N + N / 2 + 8 * i)
    wrs avx_data (i * 8)
      [srli8 (slli8 (l 0) 16) 16, srli8 (l 0) 16, srli8 (slli8 (l 1) 16) 16, srli8 (l 1) 16,
       srli8 (slli8 (l 2) 16) 16, srli8 (l 2) 16, srli8 (slli8 (l 3) 16) 16, srli8 (l 3) 16]

/-- `avx_load_8bit_16bit` (pack_unpack.c:186-252); `cfbs_l` points to byte `off l` of `bs_l`; `4 * (size*8/(32*2))` is the offset of `cfbs4` in bytes.
The code assigns the four elements of a group from the last to the first; the model assigns them from the first to the last.
The same statements stand in `BS2POLq4x` (SABER_indcpa.c:149-201) for `size = 416`. -/
def avx_load_8bit_16bit (bs : Fam (List Byte)) (off : Fam Nat) (avx_bytes : List V8) (size : Nat) : CM (List V8) :=
  loop (size / 32) avx_bytes fun i avx_bytes => do
    let l ← loadBlock (fun l => load_ps (bs l)) (fun l => off l + 16 * i) (fun l => off l + 4 * (size * 8 / (32 * 2)) + 16 * i)
    wrs avx_bytes (i * 16)
      [srli8 (slli8 (l 0) 24) 24, srli8 (slli8 (l 0) 16) 24, srli8 (slli8 (l 0) 8) 24, srli8 (l 0) 24,
       srli8 (slli8 (l 1) 24) 24, srli8 (slli8 (l 1) 16) 24, srli8 (slli8 (l 1) 8) 24, srli8 (l 1) 24,
       srli8 (slli8 (l 2) 24) 24, srli8 (slli8 (l 2) 16) 24, srli8 (slli8 (l 2) 8) 24, srli8 (l 2) 24,
       srli8 (slli8 (l 3) 24) 24, srli8 (slli8 (l 3) 16) 24, srli8 (slli8 (l 3) 8) 24, srli8 (l 3) 24]

/-- The 16 `extractf128` and the four transpositions (pack_unpack.c:76-100 and 128-152, 269-297 and 324-347, SABER_indcpa.c:260-284 and
303-326): the results `l_{4g}, …, l_{4g+3}` of the transposition number `g`. -/
def extract16 (avx : List V8) (offset0 : Nat) (h : Fin 2) : CM (Fin 4 → Fam V4) := do
  let x ← gather 16 (fun i => rd avx (offset0 + i)) (fun _ => 0)
  .ok fun g => TRANSPOSE4 fun c => extractf128 (x (4 * g.val + c.val)) h

/-- `ph0 .. ph3` at pack_unpack.c:104-118 and 155-169 -/
def pack8 (l : Fin 4 → Fam V4) : Fam (Fin 16 → BitVec 8) :=
  fun r => packus_epi16 (packus_epi32 (l 0 r) (l 1 r)) (packus_epi32 (l 2 r) (l 3 r))

/-- `avx_store_8bit_bs` (pack_unpack.c:62-184); `bs_l` points to byte `off l` of `bytes_l` and `bs_{4+l}` to byte `off l + off1` (pack_unpack.c:677-685,
906-914). -/
def avx_store_8bit_bs (avx_bytes : List V8) (size : Nat) (bytes : Fam (List Byte)) (off : Fam Nat) (off1 : Nat) : CM (Fam (List Byte)) :=
  loop (size / 16) bytes fun k bytes => do
    let l ← extract16 avx_bytes (16 * k) 0
    let bytes ← fourA bytes fun r b => store_si128 b (off r + 16 * k) (pack8 l r)
    let l ← extract16 avx_bytes (16 * k) 1
    fourA bytes fun r b => store_si128 b (off r + off1 + 16 * k) (pack8 l r)

/-- The right-hand sides of the assignments to `data0[n][m] .. data3[n][m]` (pack_unpack.c:302-317, 349-362, SABER_indcpa.c:287-301,
328-341) -/
def pack16 (l : Fin 4 → Fam V4) : Fam Avx.Vec :=
  fun r => cat (packs_epi32 (l 0 r) (l 1 r)) (packs_epi32 (l 2 r) (l 3 r))

/-- `data[n][m] = v` -/
def wr2 {α : Type} (data : List (List α)) (n m : Nat) (v : α) : CM (List (List α)) := do
  let row ← rd data n
  let row ← wr row m v
  wr data n row

/-- `avx_store_16bit_KN` (pack_unpack.c:254-367) -/
def avx_store_16bit_KN (avx_data_new : List V8) (data : Fam (List (List Avx.Vec))) : CM (Fam (List (List Avx.Vec))) :=
  loop (K * (N / 16) / 2) data fun k data => do
    let l ← extract16 avx_data_new (16 * k) 0
    let data ← fourA data fun r d => wr2 d (k / 16) (k % 16) (pack16 l r)
    let l ← extract16 avx_data_new (16 * k) 1
    fourA data fun r d => wr2 d ((K * (N / 16) / 2 + k) / 16) ((K * (N / 16) / 2 + k) % 16) (pack16 l r)

/-- `POLVECp2BSX4` (pack_unpack.c:623-688); `bytes_l` points to byte `off l`. -/
def POLVECp2BSX4 (bytes : Fam (List Byte)) (off : Fam Nat) (data : Fam (List (List (BitVec 16)))) : CM (Fam (List Byte)) := do
  let size := 960
  let avx_data ← avx_load_16bit_8bit data (uninitV8 400 (K * N / 2))
  let avx_bytes ← loop K (uninitV8 401 480) fun i avx_bytes => loop (N / (4 * 2)) avx_bytes fun j avx_bytes => do
    let x ← gather 4 (fun k => rd avx_data (N * i / 2 + 4 * j + k)) (fun _ => 0)
    wrs avx_bytes (i * (N * 10) / 8 / 2 + 5 * j) (p2BSX4Blk x)
  avx_store_8bit_bs avx_bytes (size / 2) bytes off (960 / 2)

/-- `POLVECq2BSX4` (pack_unpack.c:834-918); `bytes_l` points to byte `off l`. -/
def POLVECq2BSX4 (bytes : Fam (List Byte)) (off : Fam Nat) (data : Fam (List (List (BitVec 16)))) : CM (Fam (List Byte)) := do
  let size := 1248
  let avx_data ← avx_load_16bit_8bit data (uninitV8 402 (K * N / 2))
  let avx_bytes ← loop K (uninitV8 403 624) fun i avx_bytes => loop (N / (8 * 2)) avx_bytes fun j avx_bytes => do
    let x ← gather 8 (fun k => rd avx_data (N * i / 2 + 8 * j + k)) (fun _ => 0)
    wrs avx_bytes (i * (N * 13) / 8 / 2 + 13 * j) (q2BSX4Blk x)
  avx_store_8bit_bs avx_bytes (size / 2) bytes off (size / 2)

/-- `BS2POLVECpX4` (pack_unpack.c:1063-1107); `bs_l` points to byte `off l`. -/
def BS2POLVECpX4 (bs : Fam (List Byte)) (off : Fam Nat) (data : Fam (List (List Avx.Vec))) : CM (Fam (List (List Avx.Vec))) := do
  let avx_bytes ← avx_load_8bit_16bit bs off (uninitV8 404 (960 / 2)) 960
  let avx_data ← loop K (uninitV8 405 (K * N / 2)) fun i avx_data => loop (N / 4 / 2) avx_data fun j avx_data => do
    let x ← gather 5 (fun k => rd avx_bytes (i * (N * 10) / 8 / 2 + 5 * j + k)) (fun _ => 0)
    wrs avx_data (i * N / 2 + 4 * j) (BS2pX4Blk x)
  avx_store_16bit_KN avx_data data

/-- `BS2POLVECqX4` (pack_unpack.c:1206-1252); `bs_l` points to byte `off l`. -/
def BS2POLVECqX4 (bs : Fam (List Byte)) (off : Fam Nat) (data : Fam (List (List Avx.Vec))) : CM (Fam (List (List Avx.Vec))) := do
  let avx_bytes ← avx_load_8bit_16bit bs off (uninitV8 406 (1248 / 2)) 1248
  let avx_data ← loop K (uninitV8 407 (K * N / 2)) fun i avx_data => loop (N / (8 * 2)) avx_data fun j avx_data => do
    let x ← gather 13 (fun k => rd avx_bytes (i * (N * 13) / 8 / 2 + 13 * j + k)) (fun _ => 0)
    wrs avx_data (i * N / 2 + 8 * j) (BS2qX4Blk x)
  avx_store_16bit_KN avx_data data

/-- `POLVEC2BSX4` (pack_unpack.c:1692-1701) -/
def POLVEC2BSX4 (bytes : Fam (List Byte)) (off : Fam Nat) (data : Fam (List (List (BitVec 16)))) (modulus : Nat) : CM (Fam (List Byte)) :=
  if modulus = 1024 then POLVECp2BSX4 bytes off data
  else if modulus = 8192 then POLVECq2BSX4 bytes off data
  else .ok bytes

/-- `BS2POLVECX4` (pack_unpack.c:1714-1725) -/
def BS2POLVECX4 (bytes : Fam (List Byte)) (off : Fam Nat) (data : Fam (List (List Avx.Vec))) (modulus : Nat) :
    CM (Fam (List (List Avx.Vec))) :=
  if modulus = 1024 then BS2POLVECpX4 bytes off data
  else if modulus = 8192 then BS2POLVECqX4 bytes off data
  else .ok data

/-- `BS2POLq4x` (SABER_indcpa.c:124-345); `bs_l` points to byte `off l`. -/
def BS2POLq4x (bs : Fam (List Byte)) (off : Fam Nat) (data : Fam (List Avx.Vec)) : CM (Fam (List Avx.Vec)) := do
  let avx_bytes ← avx_load_8bit_16bit bs off (uninitV8 408 (32 * 13 / 2)) (32 * 13)
  let avx_data ← loop (N / 8 / 2) (uninitV8 409 (256 / 2)) fun j avx_data => do
    let x ← gather 13 (fun k => rd avx_bytes (13 * j + k)) (fun _ => 0)
    wrs avx_data (8 * j) (BS2POLq4xBlk x)
  loop 8 data fun k data => do
    let l ← extract16 avx_data (16 * k) 0
    let data ← fourA data fun r d => wr d k (pack16 l r)
    let l ← extract16 avx_data (16 * k) 1
    fourA data fun r d => wr d (k + 8) (pack16 l r)

/-- `SABER_pack_4bit` (pack_unpack.c:408-419); the right-hand side is that of `POLT2BS` in the reference implementation. -/
def SABER_pack_4bit (bytes : List Byte) (off : Nat) (data : List (BitVec 16)) : CM (List Byte) := POLT2BS_4 bytes off data

/-- `SABER_un_pack4bitX4` (pack_unpack.c:515-536); the right-hand sides are those of `BS2POLT` in the reference implementation. -/
def SABER_un_pack4bitX4 (bytes : Fam (List Byte)) (off : Fam Nat) (Mask_ar : Fam (List (BitVec 16))) : CM (Fam (List (BitVec 16))) :=
  loop (N / 2) Mask_ar fun j Mask_ar => fourA Mask_ar fun l m => do
    let b0 ← rdN (bytes l) (off l + 1 * j + 0)
    wrs m (2 * j) (BS2POLT_4Blk b0)

end Saber.X4
