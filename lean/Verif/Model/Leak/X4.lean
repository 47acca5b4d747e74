import Verif.Model.Leak.X4Machine
/-!
# SaberX4 with events

Generated by `tools/leakgen.py` from Model/X4/Keccak.lean, Model/X4/Fips202.lean, Model/X4/Vec.lean, Model/X4/Pack.lean, Model/X4/Indcpa.lean, Model/X4/Kem.lean: the same code over the operations of `Model/Leak/Monad.lean`.  The erasure theorems in
`Proof/Leak` say that leaving out the events gives the model.  A condition that is fixed by the build configuration has no event.
-/
namespace Saber.Leak.X4
open Saber.X4


/-! ## X4/Keccak -/

/-- A call `thetaRhoPiChiIotaPrepareTheta(i, X, Y)` (keccak4x/KeccakP-1600-times4-SIMD256.c:473-591): the variables `X..` and `C.` before, the
variables `Y..` and `C.` after. -/
def roundPrepare (i : Nat) (X : Vars × Cols) : LM (Vars × Cols) := do
  let rc ← rd KeccakF1600RoundConstants i
  pure (thetaRhoPiChiIotaPrepareTheta rc X.1 X.2)

/-- A call `thetaRhoPiChiIota(i, X, Y)` (keccak4x/KeccakP-1600-times4-SIMD256.c:594-687). -/
def roundLast (i : Nat) (X : Vars × Cols) : LM Vars := do
  let rc ← rd KeccakF1600RoundConstants i
  pure (thetaRhoPiChiIota rc X.1 X.2)

/-- `rounds24` (keccak4x/KeccakP-1600-unrolling.macros:17-43, with `FullUnrolling`) -/
def rounds24 (A : Vars) : LM Vars := do
  let A := (A, prepareTheta A)
  let E ← roundPrepare 0 A
  let A ← roundPrepare 1 E
  let E ← roundPrepare 2 A
  let A ← roundPrepare 3 E
  let E ← roundPrepare 4 A
  let A ← roundPrepare 5 E
  let E ← roundPrepare 6 A
  let A ← roundPrepare 7 E
  let E ← roundPrepare 8 A
  let A ← roundPrepare 9 E
  let E ← roundPrepare 10 A
  let A ← roundPrepare 11 E
  let E ← roundPrepare 12 A
  let A ← roundPrepare 13 E
  let E ← roundPrepare 14 A
  let A ← roundPrepare 15 E
  let E ← roundPrepare 16 A
  let A ← roundPrepare 17 E
  let E ← roundPrepare 18 A
  let A ← roundPrepare 19 E
  let E ← roundPrepare 20 A
  let A ← roundPrepare 21 E
  let E ← roundPrepare 22 A
  let A ← roundLast 23 E
  pure A

/-- `KeccakP1600times4_PermuteAll_24rounds` (keccak4x/KeccakP-1600-times4-SIMD256.c:802-813) with `copyFromState` (714-740) and
`copyToState` (741-767) -/
def KeccakP1600times4_PermuteAll_24rounds (states : List V256) : LM (List V256) := do
  let Aba ← rd states 0
  let Abe ← rd states 1
  let Abi ← rd states 2
  let Abo ← rd states 3
  let Abu ← rd states 4
  let Aga ← rd states 5
  let Age ← rd states 6
  let Agi ← rd states 7
  let Ago ← rd states 8
  let Agu ← rd states 9
  let Aka ← rd states 10
  let Ake ← rd states 11
  let Aki ← rd states 12
  let Ako ← rd states 13
  let Aku ← rd states 14
  let Ama ← rd states 15
  let Ame ← rd states 16
  let Ami ← rd states 17
  let Amo ← rd states 18
  let Amu ← rd states 19
  let Asa ← rd states 20
  let Ase ← rd states 21
  let Asi ← rd states 22
  let Aso ← rd states 23
  let Asu ← rd states 24
  let A ← rounds24 ⟨Aba, Abe, Abi, Abo, Abu, Aga, Age, Agi, Ago, Agu, Aka, Ake, Aki, Ako, Aku, Ama, Ame, Ami, Amo, Amu, Asa, Ase, Asi, Aso, Asu⟩
  let states ← wr states 0 A.ba
  let states ← wr states 1 A.be
  let states ← wr states 2 A.bi
  let states ← wr states 3 A.bo
  let states ← wr states 4 A.bu
  let states ← wr states 5 A.ga
  let states ← wr states 6 A.ge
  let states ← wr states 7 A.gi
  let states ← wr states 8 A.go
  let states ← wr states 9 A.gu
  let states ← wr states 10 A.ka
  let states ← wr states 11 A.ke
  let states ← wr states 12 A.ki
  let states ← wr states 13 A.ko
  let states ← wr states 14 A.ku
  let states ← wr states 15 A.ma
  let states ← wr states 16 A.me
  let states ← wr states 17 A.mi
  let states ← wr states 18 A.mo
  let states ← wr states 19 A.mu
  let states ← wr states 20 A.sa
  let states ← wr states 21 A.se
  let states ← wr states 22 A.si
  let states ← wr states 23 A.so
  let states ← wr states 24 A.su
  pure states

/-! ## X4/Fips202 -/

/-- `ss[j]` for `unsigned long long *ss = (unsigned long long *)s` (fips202x4.c:49, 113): lane `j % 4` of `s[j / 4]`. -/
def ssRd (s : List V256) (j : Nat) : LM (BitVec 64) := do
  let v ← rd s (j / 4)
  pure (v (Fin.ofNat 4 j))

/-- `ss[j] = x` -/
def ssWr (s : List V256) (j : Nat) (x : BitVec 64) : LM (List V256) := do
  let v ← rd s (j / 4)
  wr s (j / 4) (setFam v (Fin.ofNat 4 j) x)

/-- The loop that adds a block to the state (fips202x4.c:53-59 and 94-100) -/
def xorBlock4x (s : List V256) (r : Nat) (m : Fam (List Byte)) (mOff : Fam Nat) : LM (List V256) :=
  loop (r / 8) s fun i s => four s fun l s => do
    let v ← load64 (m l) (mOff l + 8 * i)
    let x ← ssRd s (4 * i + l)
    ssWr s (4 * i + l) (x ^^^ v)

/-- The `while (mlen >= r)` loop of `keccak_absorb4x` (fips202x4.c:51-67); returns `s`, the offsets of `m0..m3` and `mlen`.
For `r = 0` the C loop does not terminate; the callers pass 168, 136 and 72. -/
def absorbLoop4x (s : List V256) (r : Nat) (m : Fam (List Byte)) (mOff : Fam Nat) (mlen : Nat) : LM (List V256 × Fam Nat × Nat) :=
  do
  branch (decide (r ≤ mlen ∧ 0 < r))
  if h : r ≤ mlen ∧ 0 < r then do
    let s ← xorBlock4x s r m mOff
    let s ← KeccakP1600times4_PermuteAll_24rounds s
    absorbLoop4x s r m (fun l => mOff l + r) (mlen - r)
  else
    pure (s, mOff, mlen)
termination_by mlen

/-- `keccak_absorb4x` (fips202x4.c:34-101).  After the loop at 76-82 the variable `i` is `mlen`. -/
def keccak_absorb4x (s : List V256) (r : Nat) (m : Fam (List Byte)) (mOff : Fam Nat) (mlen : Nat) (p : Byte) : LM (List V256) := do
  let (s, mOff, mlen) ← absorbLoop4x s r m mOff mlen
  let t : Fam (List Byte) := fun l => uninit 8 (300 + l) 200
  let t ← loop r t fun i t => four t fun l t => do
    let a ← wr (t l) i 0
    pure (setFam t l a)
  let t ← loop mlen t fun i t => four t fun l t => do
    let v ← rd (m l) (mOff l + i)
    let a ← wr (t l) i v
    pure (setFam t l a)
  let t ← four t fun l t => do
    let a ← wr (t l) mlen p
    pure (setFam t l a)
  let t ← four t fun l t => do
    let v ← rd (t l) (r - 1)
    let a ← wr (t l) (r - 1) (v ||| 128)
    pure (setFam t l a)
  xorBlock4x s r t (fun _ => 0)

/-- `keccak_squeezeblocks4x` (fips202x4.c:103-131); `h_l` points to `h_l[hOff l]`; returns the new contents of `h0..h3` and `s`. -/
def keccak_squeezeblocks4x (h : Fam (List Byte)) (hOff : Fam Nat) (nblocks : Nat) (s : List V256) (r : Nat) :
    LM (Fam (List Byte) × List V256) := do
  let (h, _, s) ← loop nblocks (h, hOff, s) fun _ (h, hOff, s) => do
    let s ← KeccakP1600times4_PermuteAll_24rounds s
    let h ← loop (r >>> 3) h fun i h => four h fun l h => do
      let v ← ssRd s (4 * i + l)
      let a ← store64 (h l) (hOff l + 8 * i) v
      pure (setFam h l a)
    pure (h, fun l => hOff l + r, s)
  pure (h, s)

/-- `__m256i s[25]` and `s[i] = _mm256_xor_si256(s[i], s[i])` (fips202x4.c:154, 162-163 and the same in the other functions).  The operands are
indeterminate values; the two reads of one variable give the same value (trusted). -/
def clearState4x : LM (List V256) :=
  loop 25 ((List.range 25).map fun i l => junk 64 310 (4 * i + l)) fun i s => do
    let x ← rd s i
    wr s i (XOR256 x x)

/-- The loop that copies the first `n` bytes of `t0..t3` to the outputs (fips202x4.c:179-185, 224-230, 263-269 and 302-308). -/
def copyOut (n : Nat) (out : Fam (List Byte)) (outOff : Fam Nat) (t : Fam (List Byte)) : LM (Fam (List Byte)) :=
  loop n out fun i out => four out fun l out => do
    let v ← rd (t l) i
    let a ← wr (out l) (outOff l + i) v
    pure (setFam out l a)

/-- `shake128x4` (fips202x4.c:145-187) with arrays `t0..t3` of `tSize` bytes.  The code declares them with `SHAKE256_RATE` bytes (155-158). -/
def shake128x4With (tSize : Nat) (out : Fam (List Byte)) (outOff : Fam Nat) (outlen : Nat) (input : Fam (List Byte)) (inOff : Fam Nat) (inlen : Nat) :
    LM (Fam (List Byte)) := do
  let s ← clearState4x
  let s ← keccak_absorb4x s SHAKE128_RATE input inOff inlen 0x1F
  let (out, s) ← keccak_squeezeblocks4x out outOff (outlen / SHAKE128_RATE) s SHAKE128_RATE
  let outOff : Fam Nat := fun l => outOff l + (outlen / SHAKE128_RATE) * SHAKE128_RATE
  branch (decide (outlen % SHAKE128_RATE ≠ 0))
  if outlen % SHAKE128_RATE ≠ 0 then
    let (t, _) ← keccak_squeezeblocks4x (fun l => uninit 8 (320 + l) tSize) (fun _ => 0) 1 s SHAKE128_RATE
    copyOut (outlen % SHAKE128_RATE) out outOff t
  else
    pure out

/-- `shake256x4` (fips202x4.c:190-232) -/
def shake256x4 (out : Fam (List Byte)) (outOff : Fam Nat) (outlen : Nat) (input : Fam (List Byte)) (inOff : Fam Nat) (inlen : Nat) :
    LM (Fam (List Byte)) := do
  let s ← clearState4x
  let s ← keccak_absorb4x s SHAKE256_RATE input inOff inlen 0x1F
  let (out, s) ← keccak_squeezeblocks4x out outOff (outlen / SHAKE256_RATE) s SHAKE256_RATE
  let outOff : Fam Nat := fun l => outOff l + (outlen / SHAKE256_RATE) * SHAKE256_RATE
  branch (decide (outlen % SHAKE256_RATE ≠ 0))
  if outlen % SHAKE256_RATE ≠ 0 then
    let (t, _) ← keccak_squeezeblocks4x (fun l => uninit 8 (330 + l) SHAKE256_RATE) (fun _ => 0) 1 s SHAKE256_RATE
    copyOut (outlen % SHAKE256_RATE) out outOff t
  else
    pure out

/-- `sha3_256x4` (fips202x4.c:234-270).  All reads of the inputs happen before the first write to an output, so a call in which both pointers
point into the same object is modelled by passing that object twice. -/
def sha3_256x4 (out : Fam (List Byte)) (outOff : Fam Nat) (input : Fam (List Byte)) (inOff : Fam Nat) (inlen : Nat) : LM (Fam (List Byte)) := do
  let s ← clearState4x
  let s ← keccak_absorb4x s SHA3_256_RATE input inOff inlen 0x06
  let (t, _) ← keccak_squeezeblocks4x (fun l => uninit 8 (340 + l) SHA3_256_RATE) (fun _ => 0) 1 s SHA3_256_RATE
  copyOut 32 out outOff t

/-- `sha3_512x4` (fips202x4.c:273-309); same conventions. -/
def sha3_512x4 (out : Fam (List Byte)) (outOff : Fam Nat) (input : Fam (List Byte)) (inOff : Fam Nat) (inlen : Nat) : LM (Fam (List Byte)) := do
  let s ← clearState4x
  let s ← keccak_absorb4x s SHA3_512_RATE input inOff inlen 0x06
  let (t, _) ← keccak_squeezeblocks4x (fun l => uninit 8 (350 + l) SHA3_512_RATE) (fun _ => 0) 1 s SHA3_512_RATE
  copyOut 64 out outOff t

/-! ## X4/Vec -/

/-- `_mm_load_ps` from `&bytes[off]`: 16 bytes, as little-endian 32-bit elements -/
def load_ps (bytes : List Byte) (off : Nat) : LM V4 := do
  let b ← gather 16 (fun i => rd bytes (off + i)) 0
  pure fun c => b (4 * c + 3) ++ b (4 * c + 2) ++ b (4 * c + 1) ++ b (4 * c)

/-- Element `n` of a `uint16_t data[SABER_K][SABER_N]` whose rows follow each other in memory. -/
def flatRd (data : List (List (BitVec 16))) (n : Nat) : LM (BitVec 16) := do
  let row ← rd data (n / N)
  rd row (n % N)

/-- `_mm_load_ps` from element `off` of a `uint16_t data[SABER_K][SABER_N]`: 8 elements -/
def load_ps16 (data : List (List (BitVec 16))) (off : Nat) : LM V4 := do
  let b ← gather 8 (fun i => flatRd data (off + i)) 0
  pure fun c => b (2 * c + 1) ++ b (2 * c)

/-- `_mm_store_si128` to `&bytes[off]` -/
def store_si128 (bytes : List Byte) (off : Nat) (v : Fin 16 → BitVec 8) : LM (List Byte) :=
  wrs bytes off ((List.finRange 16).map v)

/-! ## X4/Pack -/

/-- The two groups of loads, the two transpositions and the four `insertf128` at pack_unpack.c:24-43, 209-228 and SABER_indcpa.c:159-178:
`l0_256 .. l3_256`; `ld l off` is the load of 16 bytes from the string or array `l` at `off`. -/
def loadBlock (ld : Fin 4 → Nat → LM V4) (off0 off1 : Fam Nat) : LM (Fam V8) := do
  let lo ← famM fun l => ld l (off0 l)
  let hi ← famM fun l => ld l (off1 l)
  let lo := TRANSPOSE4 lo
  let hi := TRANSPOSE4 hi
  pure fun r => insertf128 (lo r) (hi r)

/-- `avx_load_16bit_8bit` (pack_unpack.c:9-60); `cfbs_l` points to element 0 of `data_l` and `cfbs_{4+l}` to `data_l[SABER_K/2][SABER_N/2]`
(pack_unpack.c:637-645, 848-856).  The new content of `avx_data` is returned. -/
def avx_load_16bit_8bit (data : Fam (List (List (BitVec 16)))) (avx_data : List V8) : LM (List V8) :=
  loop (K * N * 16 / (128 * 2)) avx_data fun i avx_data => do
    let l ← loadBlock (fun l => load_ps16 (data l)) (fun _ => 8 * i) (fun _ => K / 2 * N + N / 2 + 8 * i)
    wrs avx_data (i * 8)
      [srli8 (slli8 (l 0) 16) 16, srli8 (l 0) 16, srli8 (slli8 (l 1) 16) 16, srli8 (l 1) 16,
       srli8 (slli8 (l 2) 16) 16, srli8 (l 2) 16, srli8 (slli8 (l 3) 16) 16, srli8 (l 3) 16]

/-- `avx_load_8bit_16bit` (pack_unpack.c:186-252); `cfbs_l` points to byte `off l` of `bs_l`; `4 * (size*8/(32*2))` is the offset of `cfbs4` in bytes.
The code assigns the four elements of a group from the last to the first; the model assigns them from the first to the last.
The same statements stand in `BS2POLq4x` (SABER_indcpa.c:149-201) for `size = 416`. -/
def avx_load_8bit_16bit (bs : Fam (List Byte)) (off : Fam Nat) (avx_bytes : List V8) (size : Nat) : LM (List V8) :=
  loop (size / 32) avx_bytes fun i avx_bytes => do
    let l ← loadBlock (fun l => load_ps (bs l)) (fun l => off l + 16 * i) (fun l => off l + 4 * (size * 8 / (32 * 2)) + 16 * i)
    wrs avx_bytes (i * 16)
      [srli8 (slli8 (l 0) 24) 24, srli8 (slli8 (l 0) 16) 24, srli8 (slli8 (l 0) 8) 24, srli8 (l 0) 24,
       srli8 (slli8 (l 1) 24) 24, srli8 (slli8 (l 1) 16) 24, srli8 (slli8 (l 1) 8) 24, srli8 (l 1) 24,
       srli8 (slli8 (l 2) 24) 24, srli8 (slli8 (l 2) 16) 24, srli8 (slli8 (l 2) 8) 24, srli8 (l 2) 24,
       srli8 (slli8 (l 3) 24) 24, srli8 (slli8 (l 3) 16) 24, srli8 (slli8 (l 3) 8) 24, srli8 (l 3) 24]

/-- The 16 `extractf128` and the four transpositions (pack_unpack.c:76-100 and 128-152, 269-297 and 324-347, SABER_indcpa.c:260-284 and
303-326): the results `l_{4g}, …, l_{4g+3}` of the transposition number `g`. -/
def extract16 (avx : List V8) (offset0 : Nat) (h : Fin 2) : LM (Fin 4 → Fam V4) := do
  let x ← gather 16 (fun i => rd avx (offset0 + i)) (fun _ => 0)
  pure fun g => TRANSPOSE4 fun c => extractf128 (x (4 * g.val + c.val)) h

/-- `avx_store_8bit_bs` (pack_unpack.c:62-184); `bs_l` points to byte `off l` of `bytes_l` and `bs_{4+l}` to byte `off l + off1` (pack_unpack.c:677-685,
906-914). -/
def avx_store_8bit_bs (avx_bytes : List V8) (size : Nat) (bytes : Fam (List Byte)) (off : Fam Nat) (off1 : Nat) : LM (Fam (List Byte)) :=
  loop (size / 16) bytes fun k bytes => do
    let l ← extract16 avx_bytes (16 * k) 0
    let bytes ← fourA bytes fun r b => store_si128 b (off r + 16 * k) (pack8 l r)
    let l ← extract16 avx_bytes (16 * k) 1
    fourA bytes fun r b => store_si128 b (off r + off1 + 16 * k) (pack8 l r)

/-- `avx_store_16bit_KN` (pack_unpack.c:254-367) -/
def avx_store_16bit_KN (avx_data_new : List V8) (data : Fam (List (List Avx.Vec))) : LM (Fam (List (List Avx.Vec))) :=
  loop (K * (N / 16) / 2) data fun k data => do
    let l ← extract16 avx_data_new (16 * k) 0
    let data ← fourA data fun r d => wr2 d (k / 16) (k % 16) (pack16 l r)
    let l ← extract16 avx_data_new (16 * k) 1
    fourA data fun r d => wr2 d ((K * (N / 16) / 2 + k) / 16) ((K * (N / 16) / 2 + k) % 16) (pack16 l r)

/-- `POLVECp2BSX4` (pack_unpack.c:623-688); `bytes_l` points to byte `off l`. -/
def POLVECp2BSX4 (bytes : Fam (List Byte)) (off : Fam Nat) (data : Fam (List (List (BitVec 16)))) : LM (Fam (List Byte)) := do
  let size := 960
  let avx_data ← avx_load_16bit_8bit data (uninitV8 400 (K * N / 2))
  let avx_bytes ← loop K (uninitV8 401 480) fun i avx_bytes => loop (N / (4 * 2)) avx_bytes fun j avx_bytes => do
    let x ← gather 4 (fun k => rd avx_data (N * i / 2 + 4 * j + k)) (fun _ => 0)
    wrs avx_bytes (i * (N * 10) / 8 / 2 + 5 * j) (p2BSX4Blk x)
  avx_store_8bit_bs avx_bytes (size / 2) bytes off (960 / 2)

/-- `POLVECq2BSX4` (pack_unpack.c:834-918); `bytes_l` points to byte `off l`. -/
def POLVECq2BSX4 (bytes : Fam (List Byte)) (off : Fam Nat) (data : Fam (List (List (BitVec 16)))) : LM (Fam (List Byte)) := do
  let size := 1248
  let avx_data ← avx_load_16bit_8bit data (uninitV8 402 (K * N / 2))
  let avx_bytes ← loop K (uninitV8 403 624) fun i avx_bytes => loop (N / (8 * 2)) avx_bytes fun j avx_bytes => do
    let x ← gather 8 (fun k => rd avx_data (N * i / 2 + 8 * j + k)) (fun _ => 0)
    wrs avx_bytes (i * (N * 13) / 8 / 2 + 13 * j) (q2BSX4Blk x)
  avx_store_8bit_bs avx_bytes (size / 2) bytes off (size / 2)

/-- `BS2POLVECpX4` (pack_unpack.c:1063-1107); `bs_l` points to byte `off l`. -/
def BS2POLVECpX4 (bs : Fam (List Byte)) (off : Fam Nat) (data : Fam (List (List Avx.Vec))) : LM (Fam (List (List Avx.Vec))) := do
  let avx_bytes ← avx_load_8bit_16bit bs off (uninitV8 404 (960 / 2)) 960
  let avx_data ← loop K (uninitV8 405 (K * N / 2)) fun i avx_data => loop (N / 4 / 2) avx_data fun j avx_data => do
    let x ← gather 5 (fun k => rd avx_bytes (i * (N * 10) / 8 / 2 + 5 * j + k)) (fun _ => 0)
    wrs avx_data (i * N / 2 + 4 * j) (BS2pX4Blk x)
  avx_store_16bit_KN avx_data data

/-- `BS2POLVECqX4` (pack_unpack.c:1206-1252); `bs_l` points to byte `off l`. -/
def BS2POLVECqX4 (bs : Fam (List Byte)) (off : Fam Nat) (data : Fam (List (List Avx.Vec))) : LM (Fam (List (List Avx.Vec))) := do
  let avx_bytes ← avx_load_8bit_16bit bs off (uninitV8 406 (1248 / 2)) 1248
  let avx_data ← loop K (uninitV8 407 (K * N / 2)) fun i avx_data => loop (N / (8 * 2)) avx_data fun j avx_data => do
    let x ← gather 13 (fun k => rd avx_bytes (i * (N * 13) / 8 / 2 + 13 * j + k)) (fun _ => 0)
    wrs avx_data (i * N / 2 + 8 * j) (BS2qX4Blk x)
  avx_store_16bit_KN avx_data data

/-- `POLVEC2BSX4` (pack_unpack.c:1692-1701) -/
def POLVEC2BSX4 (bytes : Fam (List Byte)) (off : Fam Nat) (data : Fam (List (List (BitVec 16)))) (modulus : Nat) : LM (Fam (List Byte)) :=
  do
  branch (decide (modulus = 1024))
  if modulus = 1024 then POLVECp2BSX4 bytes off data
  else do
  branch (decide (modulus = 8192))
  if modulus = 8192 then POLVECq2BSX4 bytes off data
  else pure bytes

/-- `BS2POLVECX4` (pack_unpack.c:1714-1725) -/
def BS2POLVECX4 (bytes : Fam (List Byte)) (off : Fam Nat) (data : Fam (List (List Avx.Vec))) (modulus : Nat) :
    LM (Fam (List (List Avx.Vec))) :=
  do
  branch (decide (modulus = 1024))
  if modulus = 1024 then BS2POLVECpX4 bytes off data
  else do
  branch (decide (modulus = 8192))
  if modulus = 8192 then BS2POLVECqX4 bytes off data
  else pure data

/-- `BS2POLq4x` (SABER_indcpa.c:124-345); `bs_l` points to byte `off l`. -/
def BS2POLq4x (bs : Fam (List Byte)) (off : Fam Nat) (data : Fam (List Avx.Vec)) : LM (Fam (List Avx.Vec)) := do
  let avx_bytes ← avx_load_8bit_16bit bs off (uninitV8 408 (32 * 13 / 2)) (32 * 13)
  let avx_data ← loop (N / 8 / 2) (uninitV8 409 (256 / 2)) fun j avx_data => do
    let x ← gather 13 (fun k => rd avx_bytes (13 * j + k)) (fun _ => 0)
    wrs avx_data (8 * j) (BS2POLq4xBlk x)
  loop 8 data fun k data => do
    let l ← extract16 avx_data (16 * k) 0
    let data ← fourA data fun r d => wr d k (pack16 l r)
    let l ← extract16 avx_data (16 * k) 1
    fourA data fun r d => wr d (k + 8) (pack16 l r)

/-- `SABER_pack_4bit` (pack_unpack.c:408-419); the right-hand side is that of `POLT2BS` in the reference implementation. -/
def SABER_pack_4bit (bytes : List Byte) (off : Nat) (data : List (BitVec 16)) : LM (List Byte) := POLT2BS_4 bytes off data

/-- `SABER_un_pack4bitX4` (pack_unpack.c:515-536); the right-hand sides are those of `BS2POLT` in the reference implementation. -/
def SABER_un_pack4bitX4 (bytes : Fam (List Byte)) (off : Fam Nat) (Mask_ar : Fam (List (BitVec 16))) : LM (Fam (List (BitVec 16))) :=
  loop (N / 2) Mask_ar fun j Mask_ar => fourA Mask_ar fun l m => do
    let b0 ← rdN (bytes l) (off l + 1 * j + 0)
    wrs m (2 * j) (BS2POLT_4Blk b0)

/-! ## X4/Indcpa -/

/-- `GenMatrix4x` (SABER_indcpa.c:376-398); the seeds start at element 0. -/
def GenMatrix4x (tSize : Nat) (a : Fam VMat) (seed : Fam (List Byte)) : LM (Fam VMat) := do
  let one_vector := 13 * N / 8
  let byte_bank_length := K * K * one_vector
  let buf ← shake128x4With tSize (fun l => uninit 8 (500 + l) byte_bank_length) (fun _ => 0) byte_bank_length seed (fun _ => 0) SEEDBYTES
  loop K a fun i a => loop K a fun j a => do
    let v ← famM fun l => rd2 (a l) i j
    let v ← BS2POLq4x buf (fun _ => (i * K + j) * one_vector) v
    fourA a fun l a => wr2 a i j (v l)

/-- `GenSecret4x` (SABER_indcpa.c:419-440); `seed_l` points to `seed_l[seedOff]`. -/
def GenSecret4x (tSize : Nat) (r : Fam (List (List (BitVec 16)))) (seed : Fam (List Byte)) (seedOff : Nat) :
    LM (Fam (List (List (BitVec 16)))) := do
  let buf_size := PSet.saber.MU * N * K / 8
  let buf ← shake128x4With tSize (fun l => uninit 8 (510 + l) buf_size) (fun _ => 0) buf_size seed (fun _ => seedOff) SEEDBYTES
  loop K r fun i r => fourA r fun l r => do
    let ri ← rd r i
    let ri ← Avx.cbd .saber ri (buf l) (i * PSet.saber.MU * N / 8)
    wr r i ri

/-- The loops at SABER_indcpa.c:500-508 and 661-668. -/
def loadVec4x (dst : Fam (List (List Avx.Vec))) (src : Fam (List (List (BitVec 16)))) : LM (Fam (List (List Avx.Vec))) :=
  loop K dst fun i dst => loop (N / 16) dst fun j dst => fourA dst fun l dst => do
    let row ← rd (src l) i
    let v ← Avx.loadu row (j * 16)
    wr2 dst i j v

/-- The loops at SABER_indcpa.c:511-520 and 672-682. -/
def copyMat4x (dst src : Fam VMat) : LM (Fam VMat) :=
  loop K dst fun i dst => loop K dst fun j dst => loop (N / 16) dst fun k dst => fourA dst fun l dst => do
    let v ← rd2 (src l) i j
    let x ← rd v k
    let di ← rd dst i
    let di ← wr2 di j k x
    wr dst i di

/-- The loops at SABER_indcpa.c:522-529 and 685-692: `x = x ^ x` on uninitialised elements. -/
def clearVV4x (res : Fam (List (List Avx.Vec))) : LM (Fam (List (List Avx.Vec))) :=
  loop K res fun i res => loop (N / 16) res fun j res => fourA res fun _ res => do
    let x ← rd2 res i j
    wr2 res i j fun l => x l ^^^ x l

/-- The loops at SABER_indcpa.c:751-756 and 878-884. -/
def clear4x (v : Fam (List Avx.Vec)) : LM (Fam (List Avx.Vec)) :=
  loop (N / 16) v fun k v => fourA v fun _ v => do
    let x ← rd v k
    wr v k fun l => x l ^^^ x l

/-- The loops at SABER_indcpa.c:531-536, 696-702 and 888-893. -/
def evalAll4x (sk_avx b_bucket : Fam (List (List Avx.Vec))) : LM (Fam (List (List Avx.Vec))) :=
  loop K b_bucket fun j b_bucket => fourA b_bucket fun l b_bucket => do
    let s ← rd (sk_avx l) j
    let b ← rd b_bucket j
    let b ← Avx.TC_eval s b
    wr b_bucket j b

/-- The loops at SABER_indcpa.c:545-559 and 712-726; the two assignments to one element are one step. -/
def truncVec4x (res : Fam (List (List Avx.Vec))) : LM (Fam (List (List Avx.Vec))) :=
  loop K res fun i res => loop (N / 16) res fun j res => fourA res fun _ res => do
    let x ← rd2 res i j
    wr2 res i j fun l => (x l + Avx.H1_avx l) >>> (EQ - EP)

/-- The loops at SABER_indcpa.c:565-572 and 732-739. -/
def storeVec4x (dst : Fam (List (List (BitVec 16)))) (v : Fam (List (List Avx.Vec))) : LM (Fam (List (List (BitVec 16)))) :=
  loop K dst fun i dst => loop (N / 16) dst fun j dst => fourA dst fun l dst => do
    let x ← rd2 (v l) i j
    let row ← rd dst i
    let row ← Avx.maskstore row (j * 16) Avx.mask_load x
    wr dst i row

/-- The loop at SABER_indcpa.c:900-905. -/
def storeRow4x (row : Fam (List (BitVec 16))) (v : Fam (List Avx.Vec)) : LM (Fam (List (BitVec 16))) :=
  loop (N / 16) row fun j row => fourA row fun l row => do
    let x ← rd (v l) j
    Avx.maskstore row (j * 16) Avx.mask_load x

/-- The loop at SABER_indcpa.c:822-828: `storeRow4x` with the row number 0 of `temp0 .. temp3`. -/
def storeTemp4x (temp : Fam (List (List (BitVec 16)))) (v : Fam (List Avx.Vec)) : LM (Fam (List (List (BitVec 16)))) :=
  loop (N / 16) temp fun j temp => fourA temp fun l temp => do
    let x ← rd (v l) j
    let row ← rd temp 0
    let row ← Avx.maskstore row (j * 16) Avx.mask_load x
    wr temp 0 row

/-- `indcpa_kem_keypair` (SABER_indcpa.c:448-583).  The byte string arguments start at element 0.  Returns `pk0..pk3`, `sk0..sk3`; the new content of `seed_arr` is not
used by the caller.  In the call of `shake128x4` the outputs are the inputs; all reads of the inputs happen before the first write. -/
def indcpa_kem_keypair (tSize : Nat) (pk sk : Fam (List Byte)) (seed noiseseed : Fam (List Byte)) : LM (Fam (List Byte) × Fam (List Byte)) := do
  let seed ← shake128x4With tSize seed (fun _ => 0) SEEDBYTES seed (fun _ => 0) SEEDBYTES
  let a ← GenMatrix4x tSize (fun l => uninitVMat (520 + l)) seed
  let skpv1 ← GenSecret4x tSize (fun l => uninitVec (530 + l) K) noiseseed 0
  let sk_avx ← loadVec4x (fun l => Avx.uninitVV (540 + l) K 16) skpv1
  let a_avx ← copyMat4x (fun l => uninitVMat (550 + l)) a
  let res_avx ← clearVV4x fun l => Avx.uninitVV (560 + l) K 16
  let b_bucket ← evalAll4x sk_avx fun l => Avx.uninitVV (570 + l) K 64
  let res_avx ← fourA res_avx fun l res => Avx.matrix_vector_mul .saber (a_avx l) (b_bucket l) res 1
  let res_avx ← truncVec4x res_avx
  let sk ← POLVEC2BSX4 sk (fun _ => 0) skpv1 8192
  let skpv1 ← storeVec4x skpv1 res_avx
  let pk ← POLVEC2BSX4 pk (fun _ => 0) skpv1 1024
  let pk ← loop SEEDBYTES pk fun i pk => fourA pk fun l pk => do
    let v ← rd (seed l) i
    wr pk (PSet.saber.POLYVECCOMPRESSEDBYTES + i) v
  pure (pk, sk)

/-- The loops at SABER_indcpa.c:774-783; `message_received_l` starts at element 0. -/
def unpackMsg4x (message : Fam (List (BitVec 16))) (message_received : Fam (List Byte)) : LM (Fam (List (BitVec 16))) :=
  loop KEYBYTES message fun j message => loop 8 message fun i message => fourA message fun l message => do
    let b ← rdN (message_received l) j
    wr message (8 * j + i) (n16 ((b >>> i) &&& 0x01))

/-- The loop at SABER_indcpa.c:785-798; the two assignments to one element are one step. -/
def encodeMessage4x (message_avx : Fam (List Avx.Vec)) (message : Fam (List (BitVec 16))) : LM (Fam (List Avx.Vec)) :=
  loop (N / 16) message_avx fun i message_avx => fourA message_avx fun l message_avx => do
    let x ← Avx.loadu (message l) (i * 16)
    wr message_avx i fun k => x k <<< (EP - 1)

/-- The loop at SABER_indcpa.c:765-770. -/
def addH1_4x (v : Fam (List Avx.Vec)) : LM (Fam (List Avx.Vec)) :=
  loop (N / 16) v fun i v => fourA v fun _ v => do
    let x ← rd v i
    wr v i fun k => x k + Avx.H1_avx k

/-- The loop at SABER_indcpa.c:801-818; the three assignments to one element are one step. -/
def truncEnc4x (v m : Fam (List Avx.Vec)) : LM (Fam (List Avx.Vec)) :=
  loop (N / 16) v fun k v => fourA v fun l v => do
    let x ← rd v k
    let mk ← rd (m l) k
    wr v k fun i => ((x i - mk i) &&& Avx.mod_p i) >>> (EP - PSet.saber.ET)

/-- `indcpa_kem_enc` (SABER_indcpa.c:587-836); `noiseseed_l` and `pk_l` point to the given elements, the messages and ciphertexts start at element 0.  Returns
`ciphertext0..3`. -/
def indcpa_kem_enc (tSize : Nat) (message_received noiseseed : Fam (List Byte)) (noiseOff : Nat) (pk : Fam (List Byte)) (pkOff : Nat)
    (ciphertext : Fam (List Byte)) : LM (Fam (List Byte)) := do
  let seed ← loop SEEDBYTES (fun l : Fin 4 => uninit 8 (600 + l.val) SEEDBYTES) fun i seed => fourA seed fun l seed => do
    let v ← rd (pk l) (pkOff + PSet.saber.POLYVECCOMPRESSEDBYTES + i)
    wr seed i v
  let a ← GenMatrix4x tSize (fun l => uninitVMat (610 + l)) seed
  let skpv1 ← GenSecret4x tSize (fun l => uninitVec (620 + l) K) noiseseed noiseOff
  let sk_avx ← loadVec4x (fun l => Avx.uninitVV (630 + l) K 16) skpv1
  let a_avx ← copyMat4x (fun l => uninitVMat (640 + l)) a
  let res_avx ← clearVV4x fun l => Avx.uninitVV (650 + l) K 16
  let b_bucket ← evalAll4x sk_avx fun l => Avx.uninitVV (660 + l) K 64
  let res_avx ← fourA res_avx fun l res => Avx.matrix_vector_mul .saber (a_avx l) (b_bucket l) res 0
  let res_avx ← truncVec4x res_avx
  let temp ← storeVec4x (fun l => uninitVec (670 + l) K) res_avx
  let ciphertext ← POLVEC2BSX4 ciphertext (fun _ => 0) temp 1024
  let pkcl_avx ← BS2POLVECX4 pk (fun _ => pkOff) (fun l => Avx.uninitVV (680 + l) K 16) 1024
  let vprime ← clear4x fun l => Avx.uninitVecs (690 + l) 16
  let vprime ← fourA vprime fun l v => Avx.vector_vector_mul .saber (pkcl_avx l) (b_bucket l) v
  let vprime ← addH1_4x vprime
  let message ← unpackMsg4x (fun l => uninit 16 (700 + l) 256) message_received
  let message_avx ← encodeMessage4x (fun l => Avx.uninitVecs (710 + l) 16) message
  let vprime ← truncEnc4x vprime message_avx
  let temp ← storeTemp4x temp vprime
  fourA ciphertext fun l c => do
    let t0 ← rd (temp l) 0
    SABER_pack_4bit c PSet.saber.POLYVECCOMPRESSEDBYTES t0

/-- The loop at SABER_indcpa.c:919-924. -/
def decRound4x (m op : Fam (List (BitVec 16))) : LM (Fam (List (BitVec 16))) :=
  loop N m fun i m => fourA m fun l m => do
    let x ← rd m i
    let o ← rd (op l) i
    wr m i (u16 (isar (Avx.iand (← isub (← iadd (prom x) (Avx.h2 .saber)) (← ishl (prom o) (EP - PSet.saber.ET))) 1023) (EP - 1)))

/-- `indcpa_kem_dec` (SABER_indcpa.c:839-934); all pointers point to element 0.  Returns the new contents of `message0_dec .. message3_dec`. -/
def indcpa_kem_dec (sk ciphertext message_dec : Fam (List Byte)) : LM (Fam (List Byte)) := do
  let sksv_avx ← BS2POLVECX4 sk (fun _ => 0) (fun l => Avx.uninitVV (720 + l) K 16) 8192
  let pksv_avx ← BS2POLVECX4 ciphertext (fun _ => 0) (fun l => Avx.uninitVV (730 + l) K 16) 1024
  let v ← clear4x fun l => Avx.uninitVecs (740 + l) 16
  let b_bucket ← evalAll4x sksv_avx fun l => Avx.uninitVV (750 + l) K 64
  let v ← fourA v fun l v => Avx.vector_vector_mul .saber (pksv_avx l) (b_bucket l) v
  let m ← storeRow4x (fun l => uninit 16 (760 + l) 256) v
  let op ← SABER_un_pack4bitX4 ciphertext (fun _ => PSet.saber.POLYVECCOMPRESSEDBYTES) fun l => uninit 16 (770 + l) N
  let m ← decRound4x m op
  fourA message_dec fun l d => Avx.POL2MSG (m l) d

/-! ## X4/Kem -/

/-- `crypto_kem_keypair4x` (kem4x.c:6-53).  The loop over `i` at 19-24 is the group of four; the elements of the arrays `seed_arr`, `noiseseed_arr`,
`pseudorandom_key_arr` are families.  Returns the return code, `pk0..3`, `sk0..3` and the generator state. -/
def crypto_kem_keypair4x {σ : Type} (tSize : Nat) (rb : RandomBytes σ) (pk sk : Fam (List Byte)) (st : σ) :
    LM (Int × Fam (List Byte) × Fam (List Byte) × σ) := do
  let (seed_arr, noiseseed_arr, pseudorandom_key_arr, st) ←
    four ((fun l => uninit 8 (800 + l.val) SEEDBYTES : Fam (List Byte)), (fun l => uninit 8 (810 + l.val) 32 : Fam (List Byte)),
        (fun l => uninit 8 (820 + l.val) KEYBYTES : Fam (List Byte)), st)
      fun i (seed_arr, noiseseed_arr, pseudorandom_key_arr, st) => do
        let (x, st) ← random rb (seed_arr i) 0 SEEDBYTES st
        let (y, st) ← random rb (noiseseed_arr i) 0 32 st
        let (z, st) ← random rb (pseudorandom_key_arr i) 0 KEYBYTES st
        pure (setFam seed_arr i x, setFam noiseseed_arr i y, setFam pseudorandom_key_arr i z, st)
  let (pk, sk) ← indcpa_kem_keypair tSize pk sk seed_arr noiseseed_arr
  let sk ← loop PSet.saber.INDCPA_PUBLICKEYBYTES sk fun i sk => fourA sk fun l sk => do
    let v ← rd (pk l) i
    wr sk (i + PSet.saber.INDCPA_SECRETKEYBYTES) v
  let sk ← sha3_256x4 sk (fun _ => PSet.saber.SECRETKEYBYTES - 64) pk (fun _ => 0) PSet.saber.INDCPA_PUBLICKEYBYTES
  let sk ← loop KEYBYTES sk fun i sk => fourA sk fun l sk => do
    let v ← rd (pseudorandom_key_arr l) i
    wr sk (i + PSet.saber.SECRETKEYBYTES - KEYBYTES) v
  pure (0, pk, sk, st)

/-- `crypto_kem_enc4x` (kem4x.c:55-95).  Returns the return code, `c0..3`, `k0..3` and the generator state. -/
def crypto_kem_enc4x {σ : Type} (tSize : Nat) (rb : RandomBytes σ) (c k pk : Fam (List Byte)) (st : σ) :
    LM (Int × Fam (List Byte) × Fam (List Byte) × σ) := do
  let kr : Fam (List Byte) := fun l => uninit 8 (830 + l) 64
  let (buf, st) ← four ((fun l => uninit 8 (840 + l.val) 64 : Fam (List Byte)), st) fun l (buf, st) => do
    let (x, st) ← random rb (buf l) 0 32 st
    pure (setFam buf l x, st)
  let buf ← sha3_256x4 buf (fun _ => 0) buf (fun _ => 0) 32
  let buf ← sha3_256x4 buf (fun _ => 32) pk (fun _ => 0) PSet.saber.INDCPA_PUBLICKEYBYTES
  let kr ← sha3_512x4 kr (fun _ => 0) buf (fun _ => 0) 64
  let c ← indcpa_kem_enc tSize buf kr 32 pk 0 c
  let kr ← sha3_256x4 kr (fun _ => 32) c (fun _ => 0) PSet.saber.BYTES_CCA_DEC
  let k ← sha3_256x4 k (fun _ => 0) kr (fun _ => 0) 64
  pure (0, c, k, st)

/-- `crypto_kem_dec4x` (kem4x.c:98-161).  Returns the return code and `k0..3`. -/
def crypto_kem_dec4x (tSize : Nat) (k c sk : Fam (List Byte)) : LM (Int × Fam (List Byte)) := do
  let cmp : Fam (List Byte) := fun l => uninit 8 (850 + l) PSet.saber.BYTES_CCA_DEC
  let buf : Fam (List Byte) := fun l => uninit 8 (860 + l) 64
  let kr : Fam (List Byte) := fun l => uninit 8 (870 + l) 64
  let buf ← indcpa_kem_dec sk c buf
  let buf ← loop 32 buf fun i buf => fourA buf fun l buf => do
    let v ← rd (sk l) (PSet.saber.SECRETKEYBYTES - 64 + i)
    wr buf (32 + i) v
  let kr ← sha3_512x4 kr (fun _ => 0) buf (fun _ => 0) 64
  let cmp ← indcpa_kem_enc tSize buf kr 32 sk PSet.saber.INDCPA_SECRETKEYBYTES cmp
  let fail ← famM fun l => verify (c l) 0 (cmp l) 0 PSet.saber.BYTES_CCA_DEC
  let kr ← sha3_256x4 kr (fun _ => 32) c (fun _ => 0) PSet.saber.BYTES_CCA_DEC
  let kr ← fourA kr fun l kr => cmov kr 0 (sk l) (PSet.saber.SECRETKEYBYTES - KEYBYTES) KEYBYTES (BitVec.ofInt 8 (fail l))
  let k ← sha3_256x4 k (fun _ => 0) kr (fun _ => 0) 64
  pure (0, k)

/-- `crypto_kem_keypair` (kem.c:18-32) for a given size of the arrays in `shake128x4` -/
def crypto_kem_keypairWith {σ : Type} (tSize : Nat) (rb : RandomBytes σ) (pk sk : List Byte) (st : σ) : LM (Int × List Byte × List Byte × σ) := do
  let (_, p, s, st) ← crypto_kem_keypair4x tSize rb (slices PKB pk) (slices SKB sk) st
  pure (0, joined PKB p pk, joined SKB s sk, st)

/-- `crypto_kem_enc` (kem.c:35-56) for a given size of the arrays in `shake128x4` -/
def crypto_kem_encWith {σ : Type} (tSize : Nat) (rb : RandomBytes σ) (c k pk : List Byte) (st : σ) : LM (Int × List Byte × List Byte × σ) := do
  let (_, c', k', st) ← crypto_kem_enc4x tSize rb (slices CTB c) (slices SSB k) (slices PKB pk) st
  pure (0, joined CTB c' c, joined SSB k' k, st)

/-- `crypto_kem_dec` (kem.c:59-80) for a given size of the arrays in `shake128x4` -/
def crypto_kem_decWith (tSize : Nat) (k c sk : List Byte) : LM (Int × List Byte) := do
  let (_, k') ← crypto_kem_dec4x tSize (slices SSB k) (slices CTB c) (slices SKB sk)
  pure (0, joined SSB k' k)

end Saber.Leak.X4
