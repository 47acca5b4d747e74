import Verif.Model.Fips202
/-!
# `Cortex-M_Implementation_KEM/Cortex-M0/saber-ref-mem/src/fips202.c`

All line numbers refer to that file.  `load64` (lines 24-32), `store64` (lines 42-50) and `keccak_squeezeblocks` (lines 113-128) are the same
text as in the reference implementation and are not repeated.  `KeccakF1600_StatePermute` is a parameter
(`StatePermute`): the Makefile links assembly code, modelled in Model/Arm/Keccak.lean, in its place.
-/
namespace Saber.M0

/-- `for (i = 0; i < 25; ++i) s[i] = 0` (lines 75-76, 137-138, 344-345) -/
def zeroState (s : List (BitVec 64)) : CM (List (BitVec 64)) := loop 25 s fun i s => wr s i 0

variable [StatePermute]

/-- `keccak_absorb` (lines 67-98): the text of the reference implementation after the state has been cleared. -/
def keccak_absorb (s : List (BitVec 64)) (r : Nat) (m : List Byte) (mOff mlen : Nat) (p : Byte) : CM (List (BitVec 64)) := do
  let s ← zeroState s
  Saber.keccak_absorb s r m mOff mlen p

/-- The part of `shake128`, `shake256`, `cshake128_simple`, `cshake256_simple` after the absorb phase (lines 226-237, 273-284, 171-180, 373-382). -/
def squeezeOut (r : Nat) (output : List Byte) (outOff outlen : Nat) (s : List (BitVec 64)) : CM (List Byte) := do
  let nblocks := outlen / r
  let (output, s) ← keccak_squeezeblocks output outOff nblocks s r
  let outOff := outOff + nblocks * r
  let outlen := outlen - nblocks * r
  if outlen ≠ 0 then
    let (t, _) ← keccak_squeezeblocks (uninit 8 110 r) 0 1 s r
    loop outlen output fun i output => do
      let v ← rd t i
      wr output (outOff + i) v
  else
    pure output

/-- `shake128` (lines 216-238) -/
def shake128 (output : List Byte) (outOff outlen : Nat) (input : List Byte) (inOff inlen : Nat) : CM (List Byte) := do
  let s ← keccak_absorb (List.replicate 25 0) SHAKE128_RATE input inOff inlen 0x1F
  squeezeOut SHAKE128_RATE output outOff outlen s

/-- `sha3_256` (lines 296-310) -/
def sha3_256 (output : List Byte) (outOff : Nat) (input : List Byte) (inOff inlen : Nat) : CM (List Byte) := do
  let s ← keccak_absorb (uninit 64 111 25) SHA3_256_RATE input inOff inlen 0x06
  let (t, _) ← keccak_squeezeblocks (uninit 8 112 SHA3_256_RATE) 0 1 s SHA3_256_RATE
  loop 32 output fun i output => do
    let v ← rd t i
    wr output (outOff + i) v

/-- `sha3_512` (lines 321-335) -/
def sha3_512 (output : List Byte) (outOff : Nat) (input : List Byte) (inOff inlen : Nat) : CM (List Byte) := do
  let s ← keccak_absorb (uninit 64 113 25) SHA3_512_RATE input inOff inlen 0x06
  let (t, _) ← keccak_squeezeblocks (uninit 8 114 SHA3_512_RATE) 0 1 s SHA3_512_RATE
  loop 64 output fun i output => do
    let v ← rd t i
    wr output (outOff + i) v

/-- The eight bytes written through `sep` (lines 141-148 with `b1 = 0xa8`, lines 348-355 with `b1 = 0x88`): the first lane, little endian. -/
def sepLane (b1 : Byte) (cstm : BitVec 16) : BitVec 64 :=
  (cstm >>> 8).setWidth 8 ++ (cstm &&& 0xff).setWidth 8 ++ (16 : Byte) ++ (1 : Byte) ++ (0 : Byte) ++ (1 : Byte) ++ b1 ++ (1 : Byte)

/-- `cshake128_simple_absorb` (lines 132-154, `r = 168`, `b1 = 0xa8`) and `cshake256_simple_absorb` (lines 339-361, `r = 136`, `b1 = 0x88`) -/
def cshake_simple_absorb (r : Nat) (b1 : Byte) (s : List (BitVec 64)) (cstm : BitVec 16) (input : List Byte) (inOff inlen : Nat) :
    CM (List (BitVec 64)) := do
  let s ← zeroState s
  let s ← wr s 0 (sepLane b1 cstm)
  let s ← StatePermute.permute s
  keccak_absorb s r input inOff inlen 0x04

/-- `cshake128_simple` (lines 163-181) -/
def cshake128_simple (output : List Byte) (outOff outlen : Nat) (cstm : BitVec 16) (input : List Byte) (inOff inlen : Nat) :
    CM (List Byte) := do
  let s ← cshake_simple_absorb SHAKE128_RATE 0xa8 (uninit 64 115 25) cstm input inOff inlen
  squeezeOut SHAKE128_RATE output outOff outlen s

/-- `cshake256_simple` (lines 370-388) -/
def cshake256_simple (output : List Byte) (outOff outlen : Nat) (cstm : BitVec 16) (input : List Byte) (inOff inlen : Nat) :
    CM (List Byte) := do
  let s ← cshake_simple_absorb 136 0x88 (uninit 64 116 25) cstm input inOff inlen
  squeezeOut 136 output outOff outlen s

/-- `shake256` (lines 262-285) -/
def shake256 (output : List Byte) (outOff outlen : Nat) (input : List Byte) (inOff inlen : Nat) : CM (List Byte) := do
  let s ← keccak_absorb (uninit 64 117 25) 136 input inOff inlen 0x1F
  squeezeOut 136 output outOff outlen s

end Saber.M0
