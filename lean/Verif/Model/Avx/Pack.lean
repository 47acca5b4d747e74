import Verif.Model.Pack
import Verif.Model.Cbd
/-!
# `AVX_Implementation_KEM/pack_unpack.c` and `AVX_Implementation_KEM/cbd.c`

The right-hand sides of all assignments in the functions that are used are the same expressions as in the reference implementation
(compared by a script on their syntax trees), so the models of the loops over one polynomial are shared.
-/
namespace Saber.Avx

/-- `SABER_pack_3bit`, `SABER_pack_4bit`, `SABER_pack_6bit` (pack_unpack.c:3-16, 39-49 and 64-77), selected by `Saber_type` as in
SABER_indcpa.c:431-437. -/
def SABER_pack : PSet → List Byte → List (BitVec 16) → CM (List Byte)
  | .light, bytes, data => POLT2BS_3 bytes 0 data
  | .saber, bytes, data => POLT2BS_4 bytes 0 data
  | .fire, bytes, data => POLT2BS_6 bytes 0 data

/-- `SABER_un_pack3bit`, `SABER_un_pack4bit`, `SABER_un_pack6bit` (pack_unpack.c:18-37, 51-62 and 80-95), selected by `Saber_type` as in
SABER_indcpa.c:523-529. -/
def SABER_un_pack : PSet → List Byte → List (BitVec 16) → CM (List (BitVec 16))
  | .light, bytes, data => BS2POLT_3 bytes 0 data
  | .saber, bytes, data => BS2POLT_4 bytes 0 data
  | .fire, bytes, data => BS2POLT_6 bytes 0 data

/-- `POLVECp2BS` (pack_unpack.c:121-143) -/
def POLVECp2BS (P : PSet) (bytes : List Byte) (data : List (List (BitVec 16))) : CM (List Byte) :=
  loop P.L bytes fun i bytes => do
    let row ← rd data i
    POLp2BS bytes (i * (N * 10) / 8) row

/-- `POLVECq2BS` (pack_unpack.c:145-186) -/
def POLVECq2BS (P : PSet) (bytes : List Byte) (data : List (List (BitVec 16))) : CM (List Byte) :=
  loop P.L bytes fun i bytes => do
    let row ← rd data i
    POLq2BS bytes (i * (N * 13) / 8) row

/-- `BS2POLVECp` (pack_unpack.c:188-206); `bytes` points to `bytes[off]`. -/
def BS2POLVECp (P : PSet) (bytes : List Byte) (off : Nat) (data : List (List (BitVec 16))) : CM (List (List (BitVec 16))) :=
  loop P.L data fun i data => do
    let row ← rd data i
    let row ← BS2POLp bytes (off + i * (N * 10) / 8) row
    wr data i row

/-- `BS2POLVECq` (pack_unpack.c:208-231); `bytes` points to `bytes[off]`. -/
def BS2POLVECq (P : PSet) (bytes : List Byte) (off : Nat) (data : List (List (BitVec 16))) : CM (List (List (BitVec 16))) :=
  loop P.L data fun i data => do
    let row ← rd data i
    let row ← Saber.BS2POLq bytes (off + i * (N * 13) / 8) row
    wr data i row

/-- `POLVEC2BS` (pack_unpack.c:481-487) -/
def POLVEC2BS (P : PSet) (bytes : List Byte) (data : List (List (BitVec 16))) (modulus : Nat) : CM (List Byte) :=
  if modulus = 1024 then POLVECp2BS P bytes data
  else if modulus = 8192 then POLVECq2BS P bytes data
  else .ok bytes

/-- `BS2POLVEC` (pack_unpack.c:489-496); `bytes` points to `bytes[off]`. -/
def BS2POLVEC (P : PSet) (bytes : List Byte) (off : Nat) (data : List (List (BitVec 16))) (modulus : Nat) : CM (List (List (BitVec 16))) :=
  if modulus = 1024 then BS2POLVECp P bytes off data
  else if modulus = 8192 then BS2POLVECq P bytes off data
  else .ok data

/-- `cbd` (cbd.c:23-106); `buf` points to `buf[off]`.  The local computation is the one of the reference implementation; the four
results are reduced with `& Qmod_minus1` before they are stored (cbd.c:47-50, 73-76, 98-101). -/
def cbd (P : PSet) (r : List (BitVec 16)) (buf : List Byte) (off : Nat) : CM (List (BitVec 16)) :=
  match P with
  | .fire => loop (N / 4) r fun i r => do
    let t ← load_littleendian buf (off + 3 * i) 3
    wrs r (4 * i) ((cbdBlk6 (t.setWidth 32)).map (· &&& 8191))
  | .saber => loop (N / 4) r fun i r => do
    let t ← load_littleendian buf (off + 4 * i) 4
    wrs r (4 * i) ((cbdBlk8 (t.setWidth 32)).map (· &&& 8191))
  | .light => loop (N / 4) r fun i r => do
    let t ← load_littleendian buf (off + 5 * i) 5
    wrs r (4 * i) ((cbdBlk10 t).map (· &&& 8191))

end Saber.Avx
