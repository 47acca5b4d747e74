import Verif.Model.M0.Indcpa
import Verif.Model.Leak.Ref
/-!
# The Cortex-M0 implementation with events

Generated by `tools/leakgen.py` from Model/M0/Fips202.lean, Model/M0/Pack.lean, Model/M0/PolyMul.lean, Model/M0/Poly.lean, Model/M0/Indcpa.lean: the same code over the operations of `Model/Leak/Monad.lean`.  The erasure theorems in
`Proof/Leak` say that leaving out the events gives the model.  A condition that is fixed by the build configuration has no event.
-/
namespace Saber.Leak.M0
open Saber.M0


/-- A routine that adds a product to an array; compare `Saber.M0.Leaf`. -/
abbrev LLeaf := List (BitVec 16) → Nat → List (BitVec 16) → Nat → List (BitVec 16) → Nat → LM (List (BitVec 16))

/-! ## M0/Fips202 -/

/-- `for (i = 0; i < 25; ++i) s[i] = 0` (lines 75-76, 137-138, 344-345) -/
def zeroState (s : List (BitVec 64)) : LM (List (BitVec 64)) := loop 25 s fun i s => wr s i 0

section Linked
variable [L : LPermute]

/-- `keccak_absorb` (lines 67-98): the text of the reference implementation after the state has been cleared. -/
def keccak_absorb (s : List (BitVec 64)) (r : Nat) (m : List Byte) (mOff mlen : Nat) (p : Byte) : LM (List (BitVec 64)) := do
  let s ← zeroState s
  Leak.keccak_absorb s r m mOff mlen p

/-- The part of `shake128`, `shake256`, `cshake128_simple`, `cshake256_simple` after the absorb phase (lines 226-237, 273-284, 171-180, 373-382). -/
def squeezeOut (r : Nat) (output : List Byte) (outOff outlen : Nat) (s : List (BitVec 64)) : LM (List Byte) := do
  let nblocks := outlen / r
  let (output, s) ← keccak_squeezeblocks output outOff nblocks s r
  let outOff := outOff + nblocks * r
  let outlen := outlen - nblocks * r
  branch (decide (outlen ≠ 0))
  if outlen ≠ 0 then
    let (t, _) ← keccak_squeezeblocks (uninit 8 110 r) 0 1 s r
    loop outlen output fun i output => do
      let v ← rd t i
      wr output (outOff + i) v
  else
    pure output

/-- `shake128` (lines 216-238) -/
def shake128 (output : List Byte) (outOff outlen : Nat) (input : List Byte) (inOff inlen : Nat) : LM (List Byte) := do
  let s ← keccak_absorb (List.replicate 25 0) SHAKE128_RATE input inOff inlen 0x1F
  squeezeOut SHAKE128_RATE output outOff outlen s

/-- `sha3_256` (lines 296-310) -/
def sha3_256 (output : List Byte) (outOff : Nat) (input : List Byte) (inOff inlen : Nat) : LM (List Byte) := do
  let s ← keccak_absorb (uninit 64 111 25) SHA3_256_RATE input inOff inlen 0x06
  let (t, _) ← keccak_squeezeblocks (uninit 8 112 SHA3_256_RATE) 0 1 s SHA3_256_RATE
  loop 32 output fun i output => do
    let v ← rd t i
    wr output (outOff + i) v

/-- `sha3_512` (lines 321-335) -/
def sha3_512 (output : List Byte) (outOff : Nat) (input : List Byte) (inOff inlen : Nat) : LM (List Byte) := do
  let s ← keccak_absorb (uninit 64 113 25) SHA3_512_RATE input inOff inlen 0x06
  let (t, _) ← keccak_squeezeblocks (uninit 8 114 SHA3_512_RATE) 0 1 s SHA3_512_RATE
  loop 64 output fun i output => do
    let v ← rd t i
    wr output (outOff + i) v

/-- `cshake128_simple_absorb` (lines 132-154, `r = 168`, `b1 = 0xa8`) and `cshake256_simple_absorb` (lines 339-361, `r = 136`, `b1 = 0x88`) -/
def cshake_simple_absorb (r : Nat) (b1 : Byte) (s : List (BitVec 64)) (cstm : BitVec 16) (input : List Byte) (inOff inlen : Nat) :
    LM (List (BitVec 64)) := do
  let s ← zeroState s
  let s ← wr s 0 (sepLane b1 cstm)
  let s ← LPermute.permute s
  keccak_absorb s r input inOff inlen 0x04

/-- `cshake128_simple` (lines 163-181) -/
def cshake128_simple (output : List Byte) (outOff outlen : Nat) (cstm : BitVec 16) (input : List Byte) (inOff inlen : Nat) :
    LM (List Byte) := do
  let s ← cshake_simple_absorb SHAKE128_RATE 0xa8 (uninit 64 115 25) cstm input inOff inlen
  squeezeOut SHAKE128_RATE output outOff outlen s

/-- `cshake256_simple` (lines 370-388) -/
def cshake256_simple (output : List Byte) (outOff outlen : Nat) (cstm : BitVec 16) (input : List Byte) (inOff inlen : Nat) :
    LM (List Byte) := do
  let s ← cshake_simple_absorb 136 0x88 (uninit 64 116 25) cstm input inOff inlen
  squeezeOut 136 output outOff outlen s

/-- `shake256` (lines 262-285) -/
def shake256 (output : List Byte) (outOff outlen : Nat) (input : List Byte) (inOff inlen : Nat) : LM (List Byte) := do
  let s ← keccak_absorb (uninit 64 117 25) 136 input inOff inlen 0x1F
  squeezeOut 136 output outOff outlen s

end Linked

/-! ## M0/Pack -/

/-- `SABER_pack_3bit` (lines 3-16) -/
def SABER_pack_3bit (bytes : List Byte) (off : Nat) (data : List (BitVec 16)) : LM (List Byte) :=
  loop (N / 8) bytes fun j bytes => do
    let d0 ← rdN data (8 * j + 0)
    let d1 ← rdN data (8 * j + 1)
    let d2 ← rdN data (8 * j + 2)
    let d3 ← rdN data (8 * j + 3)
    let d4 ← rdN data (8 * j + 4)
    let d5 ← rdN data (8 * j + 5)
    let d6 ← rdN data (8 * j + 6)
    let d7 ← rdN data (8 * j + 7)
    wrs bytes (off + 3 * j) (pack3Blk d0 d1 d2 d3 d4 d5 d6 d7)

/-- `SABER_un_pack3bit` (lines 18-37) -/
def SABER_un_pack3bit (bytes : List Byte) (off : Nat) (data : List (BitVec 16)) : LM (List (BitVec 16)) :=
  loop (N / 8) data fun j data => do
    let b0 ← rdN bytes (off + 3 * j + 0)
    let b1 ← rdN bytes (off + 3 * j + 1)
    let b2 ← rdN bytes (off + 3 * j + 2)
    wrs data (8 * j) (unpack3Blk b0 b1 b2)

/-- `SABER_pack_4bit` (lines 40-50) -/
def SABER_pack_4bit (bytes : List Byte) (off : Nat) (data : List (BitVec 16)) : LM (List Byte) :=
  loop (N / 2) bytes fun j bytes => do
    let d0 ← rdN data (2 * j + 0)
    let d1 ← rdN data (2 * j + 1)
    wrs bytes (off + 1 * j) (pack4Blk d0 d1)

/-- `SABER_un_pack4bit` (lines 52-67) -/
def SABER_un_pack4bit (bytes : List Byte) (off : Nat) (data : List (BitVec 16)) : LM (List (BitVec 16)) :=
  loop (N / 2) data fun j data => do
    let b0 ← rdN bytes (off + 1 * j + 0)
    wrs data (2 * j) (unpack4Blk b0)

/-- `SABER_pack_6bit` (lines 69-82) -/
def SABER_pack_6bit (bytes : List Byte) (off : Nat) (data : List (BitVec 16)) : LM (List Byte) :=
  loop (N / 4) bytes fun j bytes => do
    let d0 ← rdN data (4 * j + 0)
    let d1 ← rdN data (4 * j + 1)
    let d2 ← rdN data (4 * j + 2)
    let d3 ← rdN data (4 * j + 3)
    wrs bytes (off + 3 * j) (pack6Blk d0 d1 d2 d3)

/-- `SABER_un_pack6bit` (lines 84-99) -/
def SABER_un_pack6bit (bytes : List Byte) (off : Nat) (data : List (BitVec 16)) : LM (List (BitVec 16)) :=
  loop (N / 4) data fun j data => do
    let b0 ← rdN bytes (off + 3 * j + 0)
    let b1 ← rdN bytes (off + 3 * j + 1)
    let b2 ← rdN bytes (off + 3 * j + 2)
    wrs data (4 * j) (unpack6Blk b0 b1 b2)

/-- The inner loop of `POLVECp2BS` (lines 110-122) and of `POLp2BS` (lines 269-281); `off` is `offset_byte1`. -/
def rowp2BS (bytes : List Byte) (off : Nat) (data : List (BitVec 16)) : LM (List Byte) :=
  loop (N / 4) bytes fun j bytes => do
    let d0 ← rdN data (4 * j + 0)
    let d1 ← rdN data (4 * j + 1)
    let d2 ← rdN data (4 * j + 2)
    let d3 ← rdN data (4 * j + 3)
    wrs bytes (off + 5 * j) (packpBlk d0 d1 d2 d3)

/-- The inner loop of `BS2POLVECp` (lines 136-144) and of `BS2POLp` (lines 157-165); `off` is `offset_byte1`. -/
def rowBS2p (bytes : List Byte) (off : Nat) (data : List (BitVec 16)) : LM (List (BitVec 16)) :=
  loop (N / 4) data fun j data => do
    let b0 ← rdN bytes (off + 5 * j + 0)
    let b1 ← rdN bytes (off + 5 * j + 1)
    let b2 ← rdN bytes (off + 5 * j + 2)
    let b3 ← rdN bytes (off + 5 * j + 3)
    let b4 ← rdN bytes (off + 5 * j + 4)
    wrs data (4 * j) (unpackpBlk b0 b1 b2 b3 b4)

/-- The inner loop of `POLVECq2BS` (lines 177-206); `off` is `offset_byte1`. -/
def rowq2BS (bytes : List Byte) (off : Nat) (data : List (BitVec 16)) : LM (List Byte) :=
  loop (N / 8) bytes fun j bytes => do
    let d0 ← rdN data (8 * j + 0)
    let d1 ← rdN data (8 * j + 1)
    let d2 ← rdN data (8 * j + 2)
    let d3 ← rdN data (8 * j + 3)
    let d4 ← rdN data (8 * j + 4)
    let d5 ← rdN data (8 * j + 5)
    let d6 ← rdN data (8 * j + 6)
    let d7 ← rdN data (8 * j + 7)
    wrs bytes (off + 13 * j) (packqBlk d0 d1 d2 d3 d4 d5 d6 d7)

/-- The inner loop of `BS2POLVECq` (lines 220-231) and of `BS2POLq` (lines 244-255); `off` is `offset_byte1`. -/
def rowBS2q (bytes : List Byte) (off : Nat) (data : List (BitVec 16)) : LM (List (BitVec 16)) :=
  loop (N / 8) data fun j data => do
    let b0 ← rdN bytes (off + 13 * j + 0)
    let b1 ← rdN bytes (off + 13 * j + 1)
    let b2 ← rdN bytes (off + 13 * j + 2)
    let b3 ← rdN bytes (off + 13 * j + 3)
    let b4 ← rdN bytes (off + 13 * j + 4)
    let b5 ← rdN bytes (off + 13 * j + 5)
    let b6 ← rdN bytes (off + 13 * j + 6)
    let b7 ← rdN bytes (off + 13 * j + 7)
    let b8 ← rdN bytes (off + 13 * j + 8)
    let b9 ← rdN bytes (off + 13 * j + 9)
    let b10 ← rdN bytes (off + 13 * j + 10)
    let b11 ← rdN bytes (off + 13 * j + 11)
    let b12 ← rdN bytes (off + 13 * j + 12)
    wrs data (8 * j) (unpackqBlk b0 b1 b2 b3 b4 b5 b6 b7 b8 b9 b10 b11 b12)

/-- `POLVECp2BS` (lines 102-126); `bytes` is `(bytes, off)`. -/
def POLVECp2BS (bytes : List Byte) (off : Nat) (data : List (List (BitVec 16))) : LM (List Byte) :=
  loop K bytes fun i bytes => do
    let row ← rd data i
    rowp2BS bytes (off + i * (N * 10) / 8) row

/-- `BS2POLVECp` (lines 128-148) -/
def BS2POLVECp (bytes : List Byte) (off : Nat) (data : List (List (BitVec 16))) : LM (List (List (BitVec 16))) :=
  loop K data fun i data => do
    let row ← rd data i
    let row ← rowBS2p bytes (off + i * (N * 10) / 8) row
    wr data i row

/-- `BS2POLp` (lines 150-166) -/
def BS2POLp (pol_index : Nat) (bytes : List Byte) (off : Nat) (pol : List (BitVec 16)) : LM (List (BitVec 16)) :=
  rowBS2p bytes (off + pol_index * (N * 10) / 8) pol

/-- `POLVECq2BS` (lines 169-210) -/
def POLVECq2BS (bytes : List Byte) (off : Nat) (data : List (List (BitVec 16))) : LM (List Byte) :=
  loop K bytes fun i bytes => do
    let row ← rd data i
    rowq2BS bytes (off + i * (N * 13) / 8) row

/-- `BS2POLVECq` (lines 212-235) -/
def BS2POLVECq (bytes : List Byte) (off : Nat) (data : List (List (BitVec 16))) : LM (List (List (BitVec 16))) :=
  loop K data fun i data => do
    let row ← rd data i
    let row ← rowBS2q bytes (off + i * (N * 13) / 8) row
    wr data i row

/-- `BS2POLq` (lines 237-258) -/
def BS2POLq (bytes : List Byte) (off : Nat) (data : List (BitVec 16)) : LM (List (BitVec 16)) := rowBS2q bytes off data

/-- `POLp2BS` (lines 261-283) -/
def POLp2BS (bytes : List Byte) (off : Nat) (data : List (BitVec 16)) (pol_vec_index : Nat) : LM (List Byte) :=
  rowp2BS bytes (off + pol_vec_index * (N * 10) / 8) data

/-! ## M0/PolyMul -/

/-- `school_book_mul2_16` (lines 339-347) -/
def school_book_mul2_16 (mac : Mac) : LLeaf := fun a ao b bo c cof =>
  loop 16 c fun i c => loop 16 c fun j c => do
    let x ← rd a (ao + i)
    let y ← rd b (bo + j)
    let z ← rd c (cof + (i + j))
    let v ← lift (mac z x y)
    wr c (cof + (i + j)) v

section Vars

variable (k : Nat) (a : List (BitVec 16)) (ao : Nat) (c : List (BitVec 16)) (co : Nat) (o : Nat)

/-- `loop1` (lines 49-56) -/
def kara1 (i : Nat) (s : KM) : LM KM := do
  let x ← rd s.d (o + (i)); let y ← rd s.d (o + (k+i))
  let d ← wr s.d (o + (k+i)) (x + y)
  let x ← rd d (o + (k/2+i)); let y ← rd d (o + (k+k/2+i)); let z ← rd d (o + (k+i))
  let d ← wr d (o + (k+k/2+i)) (x + y + z)
  let x ← rd a (ao + i); let y ← rd a (ao + (k+i))
  let d ← wr d (o + (3*k-1+i)) (x + y)
  let x ← rd a (ao + (k/2+i)); let y ← rd a (ao + (k+k/2+i))
  let d ← wr d (o + (3*k+k/2-1+i)) (x + y)
  let x ← rd d (o + (3*k-1+i)); let y ← rd d (o + (3*k+k/2-1+i))
  let t ← wr s.t i (x + y)
  let d ← wr d (o + (2*k+i)) 0
  pure ⟨d, t⟩

/-- `loop1_2` (lines 57-59) -/
def kara1_2 (i : Nat) (s : KM) : LM KM := do
  let x ← rd c (co + i); let y ← rd c (co + (k/2+i)); let z ← rd c (co + (k+i)); let u ← rd c (co + (k+k/2+i))
  let d ← wr s.d (o + (2*k+k/2-1+i)) (x + y + z + u)
  pure ⟨d, s.t⟩

/-- Body of `loop2` (lines 65-67) -/
def kara2 (i : Nat) (s : KM) : LM KM := do
  let x ← rd s.d (o + (k+k/2+i)); let y ← rd s.d (o + (2*k+i))
  let d ← wr s.d (o + (2*k+k/2-1+i)) (x + y)
  let d ← wr d (o + (k+k/2+i)) 0
  let x ← rd c (co + i); let y ← rd c (co + (k+i))
  let t ← wr s.t i (x + y)
  pure ⟨d, t⟩

/-- After `loop2` (lines 69-71) -/
def kara2' (i : Nat) (s : KM) : LM KM := do
  let x ← rd s.d (o + (k+k/2+i))
  let d ← wr s.d (o + (2*k+k/2-1+i)) x
  let d ← wr d (o + (k+k/2+i)) 0
  let x ← rd c (co + i); let y ← rd c (co + (k+i))
  let t ← wr s.t i (x + y)
  pure ⟨d, t⟩

/-- Body of `loop3` (lines 77-80) -/
def kara3 (i : Nat) (s : KM) : LM KM := do
  let x ← rd s.d (o + (2*k+i)); let y ← rd s.d (o + (k+k/2+i))
  let d ← wr s.d (o + (2*k+i)) (x - y)
  let x ← rd d (o + (2*k+k/2-1+i)); let y ← rd d (o + (k+i))
  let d ← wr d (o + (k+k/2+i)) (x - y)
  let d ← wr d (o + (2*k+k/2-1+i)) 0
  let x ← rd c (co + (k/2+i)); let y ← rd c (co + (k+k/2+i))
  let t ← wr s.t i (x + y)
  pure ⟨d, t⟩

/-- After `loop3` (lines 82-84) -/
def kara3' (i : Nat) (s : KM) : LM KM := do
  let x ← rd s.d (o + (2*k+k/2-1+i)); let y ← rd s.d (o + (k+i))
  let d ← wr s.d (o + (k+k/2+i)) (x - y)
  let d ← wr d (o + (2*k+k/2-1+i)) 0
  let x ← rd c (co + (k/2+i)); let y ← rd c (co + (k+k/2+i))
  let t ← wr s.t i (x + y)
  pure ⟨d, t⟩

/-- Body of `loop4` (lines 90-95) -/
def kara4 (i : Nat) (s : KM) : LM KM := do
  let x ← rd s.d (o + i); let y ← rd s.d (o + (k/2+i))
  let d ← wr s.d (o + (k/2+i)) (x + y)
  let x ← rd d (o + (2*k+i)); let y ← rd d (o + (2*k+k/2+i))
  let d ← wr d (o + (2*k+i)) (x - y)
  let x ← rd d (o + (2*k+i)); let y ← rd d (o + (k+i))
  let d ← wr d (o + (3*k-1+i)) (x + y)
  let x ← rd d (o + (k+k/2+i)); let y ← rd d (o + (2*k+i))
  let d ← wr d (o + (3*k+k/2-1+i)) (x - y)
  let d ← wr d (o + (k+i)) 0
  pure ⟨d, s.t⟩

/-- After `loop4` (lines 97-99) -/
def kara4' (i : Nat) (s : KM) : LM KM := do
  let x ← rd s.d (o + i); let y ← rd s.d (o + (k/2+i))
  let d ← wr s.d (o + (k/2+i)) (x + y)
  let x ← rd d (o + (2*k+i)); let y ← rd d (o + (k+i))
  let d ← wr d (o + (3*k-1+i)) (x + y)
  let x ← rd d (o + (k+k/2+i)); let y ← rd d (o + (2*k+i))
  let d ← wr d (o + (3*k+k/2-1+i)) (x - y)
  pure ⟨d, s.t⟩

/-- `loop4_2` (lines 100-103) -/
def kara4_2 (i : Nat) (s : KM) : LM KM := do
  let x ← rd a (ao + i); let y ← rd a (ao + (k/2+i))
  let d ← wr s.d (o + (k+k/2-1+i)) (x + y)
  let x ← rd c (co + i); let y ← rd c (co + (k/2+i))
  let t ← wr s.t i (x + y)
  pure ⟨d, t⟩

/-- Body of `loop5` (lines 109-110) -/
def kara5 (i : Nat) (s : KM) : LM KM := do
  let x ← rd s.d (o + (k/2+i)); let y ← rd s.d (o + (k+i))
  let d ← wr s.d (o + (k+k/2-1+i)) (x + y)
  let d ← wr d (o + (k/2+i)) 0
  pure ⟨d, s.t⟩

/-- After `loop5` (lines 112-113) -/
def kara5' (i : Nat) (s : KM) : LM KM := do
  let x ← rd s.d (o + (k/2+i))
  let d ← wr s.d (o + (k+k/2-1+i)) x
  let d ← wr d (o + (k/2+i)) 0
  pure ⟨d, s.t⟩

/-- Body of `loop6` (lines 119-121) -/
def kara6 (i : Nat) (s : KM) : LM KM := do
  let x ← rd s.d (o + (k+i)); let y ← rd s.d (o + (k/2+i))
  let d ← wr s.d (o + (k+i)) (x - y)
  let x ← rd d (o + (k+k/2-1+i)); let y ← rd d (o + i)
  let d ← wr d (o + (k/2+i)) (x - y)
  let d ← wr d (o + (k+k/2-1+i)) 0
  pure ⟨d, s.t⟩

/-- After `loop6` (lines 123-124) -/
def kara6' (i : Nat) (s : KM) : LM KM := do
  let x ← rd s.d (o + (k+k/2-1+i)); let y ← rd s.d (o + i)
  let d ← wr s.d (o + (k/2+i)) (x - y)
  let d ← wr d (o + (k+k/2-1+i)) 0
  pure ⟨d, s.t⟩

/-- Body of `loop7` (lines 130-137) -/
def kara7 (i : Nat) (s : KM) : LM KM := do
  let x ← rd s.d (o + (k/2+i)); let y ← rd s.d (o + (k+i))
  let d ← wr s.d (o + (k/2+i)) (x - y)
  let x ← rd d (o + (2*k+i)); let y ← rd d (o + (k+i)); let z ← rd d (o + (k+k/2+i))
  let d ← wr d (o + (2*k+i)) (x - y + z)
  let x ← rd d (o + (3*k-1+i)); let y ← rd d (o + i)
  let d ← wr d (o + (k+i)) (x - y)
  let d ← wr d (o + (3*k-1+i)) 0
  let x ← rd d (o + (2*k+i)); let y ← rd d (o + (2*k+k/2+i)); let z ← rd d (o + (k+k/2+i))
  let d ← wr d (o + (2*k+k/2+i)) (x + y - z)
  let x ← rd d (o + (3*k+k/2-1+i)); let y ← rd d (o + (k/2+i))
  let d ← wr d (o + (k+k/2+i)) (x - y)
  let x ← rd c (co + (k+i)); let y ← rd c (co + (k+k/2+i))
  let t ← wr s.t i (x + y)
  let x ← rd a (ao + (k+i)); let y ← rd a (ao + (k+k/2+i))
  let d ← wr d (o + (3*k+k/2-1+i)) (x + y)
  pure ⟨d, t⟩

/-- After `loop7` (lines 139-146) -/
def kara7' (i : Nat) (s : KM) : LM KM := do
  let x ← rd s.d (o + (k/2+i)); let y ← rd s.d (o + (k+i))
  let d ← wr s.d (o + (k/2+i)) (x - y)
  let x ← rd d (o + (2*k+i)); let y ← rd d (o + (k+i))
  let d ← wr d (o + (2*k+i)) (x - y)
  let x ← rd d (o + (3*k-1+i)); let y ← rd d (o + i)
  let d ← wr d (o + (k+i)) (x - y)
  let d ← wr d (o + (3*k-1+i)) 0
  let x ← rd d (o + (3*k+k/2-1+i)); let y ← rd d (o + (k/2+i))
  let d ← wr d (o + (k+k/2+i)) (x - y)
  let x ← rd d (o + (2*k+i)); let y ← rd d (o + (2*k+k/2+i))
  let d ← wr d (o + (2*k+k/2+i)) (x + y)
  let x ← rd c (co + (k+i)); let y ← rd c (co + (k+k/2+i))
  let t ← wr s.t i (x + y)
  let x ← rd a (ao + (k+i)); let y ← rd a (ao + (k+k/2+i))
  let d ← wr d (o + (3*k+k/2-1+i)) (x + y)
  pure ⟨d, t⟩

/-- Body of `loop8` (lines 156-157) -/
def kara8 (i : Nat) (s : KM) : LM KM := do
  let x ← rd s.d (o + (2*k+k/2+i)); let y ← rd s.d (o + (3*k+i))
  let d ← wr s.d (o + (3*k+k/2-1+i)) (x + y)
  let d ← wr d (o + (2*k+k/2+i)) 0
  pure ⟨d, s.t⟩

/-- After `loop8` (lines 159-160) -/
def kara8' (i : Nat) (s : KM) : LM KM := do
  let x ← rd s.d (o + (2*k+k/2+i))
  let d ← wr s.d (o + (3*k+k/2-1+i)) x
  let d ← wr d (o + (2*k+k/2+i)) 0
  pure ⟨d, s.t⟩

/-- Body of `loop9` (lines 166-168) -/
def kara9 (i : Nat) (s : KM) : LM KM := do
  let x ← rd s.d (o + (3*k+i)); let y ← rd s.d (o + (2*k+k/2+i))
  let d ← wr s.d (o + (3*k+i)) (x - y)
  let x ← rd d (o + (3*k+k/2-1+i)); let y ← rd d (o + (2*k+i))
  let d ← wr d (o + (2*k+k/2+i)) (x - y)
  let d ← wr d (o + (3*k+k/2-1+i)) 0
  pure ⟨d, s.t⟩

/-- After `loop9` (lines 170-171) -/
def kara9' (i : Nat) (s : KM) : LM KM := do
  let x ← rd s.d (o + (3*k+k/2-1+i)); let y ← rd s.d (o + (2*k+i))
  let d ← wr s.d (o + (2*k+k/2+i)) (x - y)
  let d ← wr d (o + (3*k+k/2-1+i)) 0
  pure ⟨d, s.t⟩

/-- Body of `loop10` (lines 177-183) -/
def kara10 (i : Nat) (s : KM) : LM KM := do
  let x ← rd s.d (o + (2*k+k/2+i)); let y ← rd s.d (o + (3*k+i))
  let d ← wr s.d (o + (2*k+k/2+i)) (x - y)
  let x ← rd d (o + (3*k+i)); let y ← rd d (o + (3*k+k/2+i))
  let d ← wr d (o + (3*k+i)) (x - y)
  let x ← rd d (o + (k+i)); let y ← rd d (o + (2*k+i))
  let d ← wr d (o + (k+i)) (x - y)
  let x ← rd d (o + (2*k+i)); let y ← rd d (o + (3*k+i))
  let d ← wr d (o + (2*k+i)) (x - y)
  let x ← rd d (o + (k+k/2+i)); let y ← rd d (o + (2*k+k/2+i))
  let d ← wr d (o + (k+k/2+i)) (x - y)
  let x ← rd d (o + (2*k+k/2+i)); let y ← rd d (o + (3*k+k/2+i))
  let d ← wr d (o + (2*k+k/2+i)) (x - y)
  pure ⟨d, s.t⟩

/-- After `loop10` (lines 185-188) -/
def kara10' (i : Nat) (s : KM) : LM KM := do
  let x ← rd s.d (o + (2*k+k/2+i)); let y ← rd s.d (o + (3*k+i))
  let d ← wr s.d (o + (2*k+k/2+i)) (x - y)
  let x ← rd d (o + (k+i)); let y ← rd d (o + (2*k+i))
  let d ← wr d (o + (k+i)) (x - y)
  let x ← rd d (o + (2*k+i)); let y ← rd d (o + (3*k+i))
  let d ← wr d (o + (2*k+i)) (x - y)
  let x ← rd d (o + (k+k/2+i)); let y ← rd d (o + (2*k+k/2+i))
  let d ← wr d (o + (k+k/2+i)) (x - y)
  pure ⟨d, s.t⟩

end Vars

/-- `unrolled_kara_mem_top` (lines 44-189, `k` = 128) and `unrolled_kara_mem_bottom` (lines 191-336, `k` = 32).
The global scratch array of `k/2` elements is written before it is read in every call; it is modelled as an uninitialised local. -/
def kara (k : Nat) (leaf : LLeaf) : LLeaf := fun a ao c co d o => do
  let s : KM := ⟨d, uninit 16 (100 + k) (k / 2)⟩
  let s ← loop (k/2) s (kara1 k a ao o)
  let s ← loop (k/2) s (kara1_2 k c co o)
  let d ← leaf s.t 0 s.d (o + (2*k+k/2-1)) s.d (o + (k+k/2))
  let s ← loop (k/2-1) ⟨d, s.t⟩ (kara2 k c co o)
  let s ← kara2' k c co o (k/2-1) s
  let d ← leaf s.t 0 s.d (o + (3*k-1)) s.d (o + k)
  let s ← loop (k/2-1) ⟨d, s.t⟩ (kara3 k c co o)
  let s ← kara3' k c co o (k/2-1) s
  let d ← leaf s.t 0 s.d (o + (k/2+3*k-1)) s.d (o + 2*k)
  let s ← loop (k/2-1) ⟨d, s.t⟩ (kara4 k o)
  let s ← kara4' k o (k/2-1) s
  let s ← loop (k/2) s (kara4_2 k a ao c co o)
  let d ← leaf s.t 0 s.d (o + (k+k/2-1)) s.d (o + k/2)
  let s ← loop (k/2-1) ⟨d, s.t⟩ (kara5 k o)
  let s ← kara5' k o (k/2-1) s
  let d ← leaf a ao c co s.d o
  let s ← loop (k/2-1) ⟨d, s.t⟩ (kara6 k o)
  let s ← kara6' k o (k/2-1) s
  let d ← leaf a (ao + k/2) c (co + k/2) s.d (o + k)
  let s ← loop (k/2-1) ⟨d, s.t⟩ (kara7 k a ao c co o)
  let s ← kara7' k a ao c co o (k/2-1) s
  let d ← leaf s.t 0 s.d (o + (3*k+k/2-1)) s.d (o + (2*k+k/2))
  let s ← loop (k/2-1) ⟨d, s.t⟩ (kara8 k o)
  let s ← kara8' k o (k/2-1) s
  let d ← leaf a (ao + k) c (co + k) s.d (o + 2*k)
  let s ← loop (k/2-1) ⟨d, s.t⟩ (kara9 k o)
  let s ← kara9' k o (k/2-1) s
  let d ← leaf a (ao + (k+k/2)) c (co + (k+k/2)) s.d (o + 3*k)
  let s ← loop (k/2-1) ⟨d, s.t⟩ (kara10 k o)
  let s ← kara10' k o (k/2-1) s
  pure s.d

/-- `unrolled_kara_mem_bottom` (lines 191-336) -/
def unrolled_kara_mem_bottom (mac : Mac) : LLeaf := kara 32 (school_book_mul2_16 mac)

/-- `unrolled_kara_mem_top` (lines 44-189) -/
def unrolled_kara_mem_top (mac : Mac) : LLeaf := kara 128 (unrolled_kara_mem_bottom mac)

/-- `pol_mul` (lines 22-42): `res += a*b`; the new content of `res` is returned. -/
def pol_mul (mac : Mac) (a b res : List (BitVec 16)) : LM (List (BitVec 16)) := do
  let c ← loop 512 (uninit 16 101 512) fun i c => wr c i 0
  let c ← unrolled_kara_mem_top mac a 0 b 0 c 0
  let c ← loop 255 c fun t c => do
    let i := 256 + t
    let x ← rd c (i - 256)
    let y ← rd c i
    wr c (i - 256) (x - y)
  loop 256 res fun i res => do
    let x ← rd res i
    let y ← rd c i
    wr res i (x + y)

/-! ## M0/Poly -/

/-- `load_littleendian` (cbd.c:15-22); `x` points to `x[off]`. -/
def load_littleendian (x : List Byte) (off bytes : Nat) : LM (BitVec 32) := do
  let x0 ← rd x off
  loop (bytes - 1) (x0.setWidth 32) fun i r => do
    let v ← rd x (off + (i + 1))
    pure (r ||| (v.setWidth 32 <<< (8 * (i + 1))))

/-- `cbd` (cbd.c:57-87); `buf` points to `buf[off]`; the new content of `r` is returned. -/
def cbd (poly_start_index : Nat) (r : List (BitVec 16)) (use_bytes : Nat) (buf : List Byte) (off : Nat) : LM (List (BitVec 16)) :=
  loop (use_bytes / 4) r fun i r => do
    let t ← load_littleendian buf (off + 4 * i) 4
    wrs r (4 * i + poly_start_index) (cbdBlk t)

/-- `for(i=n; i<SHAKE128_RATE; i++) shake_op_buf[i-n] = shake_op_buf[i]` (poly.c:59-60, 72-73) -/
def shiftBuf (n : Nat) (buf : List Byte) : LM (List Byte) :=
  loop (SHAKE128_RATE - n) buf fun i buf => do
    let v ← rd buf (n + i)
    wr buf i v

/-- `GenSecret` (poly.c:32-82); the new content of `r` is returned. -/
def GenSecret [L : LPermute] (r : List (List (BitVec 16))) (seed : List Byte) (seedOff : Nat) : LM (List (List (BitVec 16))) := do
  let buf := uninit 8 120 (SHAKE128_RATE + 80)
  let s ← zeroState (uninit 64 121 25)
  let s ← keccak_absorb s SHAKE128_RATE seed seedOff SEEDBYTES 0x1F
  let r0 ← rd r 0
  let (buf, s) ← keccak_squeezeblocks buf 0 1 s SHAKE128_RATE
  let r0 ← cbd 0 r0 SHAKE128_RATE buf 0
  let (buf, s) ← keccak_squeezeblocks buf 0 1 s SHAKE128_RATE
  let r0 ← cbd SHAKE128_RATE r0 88 buf 0
  let r ← wr r 0 r0
  let buf ← shiftBuf 88 buf
  let r1 ← rd r 1
  let (buf, s) ← keccak_squeezeblocks buf 80 1 s SHAKE128_RATE
  let r1 ← cbd 0 r1 248 buf 0
  let (buf, s) ← keccak_squeezeblocks buf 0 1 s SHAKE128_RATE
  let r1 ← cbd 248 r1 8 buf 0
  let r ← wr r 1 r1
  let buf ← shiftBuf 8 buf
  let r2 ← rd r 2
  let r2 ← cbd 0 r2 160 buf 0
  let (buf, _) ← keccak_squeezeblocks buf 0 1 s SHAKE128_RATE
  let r2 ← cbd 160 r2 96 buf 0
  wr r 2 r2

/-- `extract` (encode.c:51-59): `P_1 - SCALE_SIZE` expands to `10-1-3` and `H2` to `(1<<(10-1-1)) - (1<<(10-1-3-1))`. -/
def extract (a scale_data : BitVec 16) : LM (BitVec 16) := do
  let x ← ishl (prom scale_data) (10 - 1 - 3)
  let y ← isub (prom a) x
  let z ← iadd y (2 ^ (10 - 1 - 1) - 2 ^ (10 - 1 - 3 - 1))
  pure (floor_special (u16 z))

/-- `GenCipherText` with `ciphertext_gen` (encode.c:62-82) -/
def GenCipherText (vprime : List (BitVec 16)) (scl_c : List Byte) : LM (List Byte) := do
  let t ← loop N (uninit 16 122 N) fun i t => do
    let b ← rd vprime i
    wr t i (b >>> 6)
  SABER_pack_4bit scl_c 0 t

/-- Store of a `uint16_t` at index `i` of a pointer `uint16_t *` that points to the start of the byte array `m` (little endian; alignment is
not modelled). -/
def st16 (m : List Byte) (i : Nat) (v : BitVec 16) : LM (List Byte) := do
  let m ← wr m (2 * i) (v.setWidth 8)
  wr m (2 * i + 1) ((v >>> 8).setWidth 8)

/-- `ExtractKeyBits` (encode.c:84-97).  `message_dec_unpacked` points to the start of the byte array `m`, which is returned. -/
def ExtractKeyBits (scale_data : List (BitVec 16)) (scale_ar : List Byte) (scaleOff : Nat) (m : List Byte) : LM (List Byte) := do
  let op ← SABER_un_pack4bit scale_ar scaleOff (uninit 16 123 N)
  loop N m fun i m => do
    let a ← rd scale_data i
    let o ← rd op i
    let k ← extract a o
    st16 m i k

/-! ## M0/Indcpa -/

/-- `byte_bank2pol_part` (SABER_indcpa.c:29-49); the new content of `pol_part` is returned. -/
def byte_bank2pol_part (bytes : List Byte) (pol_part : List (BitVec 16)) (start num_8coeff : Nat) : LM (List (BitVec 16)) :=
  loop num_8coeff pol_part fun j data => do
    let b0 ← rdN bytes (13 * j + 0)
    let b1 ← rdN bytes (13 * j + 1)
    let b2 ← rdN bytes (13 * j + 2)
    let b3 ← rdN bytes (13 * j + 3)
    let b4 ← rdN bytes (13 * j + 4)
    let b5 ← rdN bytes (13 * j + 5)
    let b6 ← rdN bytes (13 * j + 6)
    let b7 ← rdN bytes (13 * j + 7)
    let b8 ← rdN bytes (13 * j + 8)
    let b9 ← rdN bytes (13 * j + 9)
    let b10 ← rdN bytes (13 * j + 10)
    let b11 ← rdN bytes (13 * j + 11)
    let b12 ← rdN bytes (13 * j + 12)
    wrs data (start + 8 * j) (unpackqBlk b0 b1 b2 b3 b4 b5 b6 b7 b8 b9 b10 b11 b12)

section Linked
variable [L : LPermute]

/-- The body of the `while` loop (SABER_indcpa.c:146-166), up to the test for completeness.  The `uint16_t` values stay below 2^16
(`left + 168` and `start + 8 * 32`), so they are computed in `Nat`. -/
def gmStep (a : List (BitVec 16)) (g : GS) : LM (List (BitVec 16) × GS) := do
  let (buf, s) ← keccak_squeezeblocks g.buf g.left 1 g.s SHAKE128_RATE
  let total := g.left + SHAKE128_RATE
  let num := total / 13
  branch (decide (num * 8 + g.start > 255))
  let num := if num * 8 + g.start > 255 then 32 - g.start / 8 else num
  let a ← byte_bank2pol_part buf a g.start num
  let left := total - num * 13
  let buf ← loop left buf fun j buf => do
    let v ← rd buf (num * 13 + j)
    wr buf j v
  pure (a, ⟨buf, s, g.start + num * 8, left⟩)

/-- The `while` loop (SABER_indcpa.c:143-173).  A step that produces no coefficient leaves at least 168 bytes in the 280-byte
buffer, so the next squeeze would write outside of it; this is the third case. -/
def gmLoop (a : List (BitVec 16)) (g : GS) : LM (List (BitVec 16) × GS) := do
  let (a, g') ← gmStep a g
  branch (decide (g'.start > 255))
  if _h : g'.start > 255 then pure (a, { g' with start := 0 })
  else if _h : g.start < g'.start then gmLoop a g'
  else lift (.error .oob)
termination_by 256 - g.start

/-- `GenMatrix_poly` (SABER_indcpa.c:116-175) -/
def GenMatrix_poly (temp_ar : List (BitVec 16)) (seed : List Byte) (seedOff poly_number : Nat) (g : GS) : LM (List (BitVec 16) × GS) :=
  do
  branch (decide (poly_number = 0))
  if poly_number = 0 then do
    let s ← zeroState g.s
    let s ← keccak_absorb s SHAKE128_RATE seed seedOff SEEDBYTES 0x1F
    gmLoop temp_ar { g with s := s, start := 0, left := 0 }
  else
    gmLoop temp_ar g

/-- The loops that round and shift (SABER_indcpa.c:211-214 and 422-426). -/
def roundRow (r : List (BitVec 16)) : LM (List (BitVec 16)) :=
  loop N r fun j r => do
    let x ← rd r j
    let r ← wr r j (x + 4)
    let x ← rd r j
    wr r j (x >>> 3)

/-- `MatrixVectorMul_keypair` (SABER_indcpa.c:370-390); the new content of `res` is returned. -/
def MatrixVectorMul_keypair (mac : Mac) (seed : List Byte) (skpv res : List (List (BitVec 16))) (gs : GS) :
    LM (List (List (BitVec 16))) := do
  let (res, _, _) ← loop K (res, uninit 16 130 N, gs) fun i st =>
    loop K st fun j (res, temp, g) => do
      let (temp, g) ← GenMatrix_poly temp seed 0 (i + j) g
      let si ← rd skpv i
      let rj ← rd res j
      let rj ← pol_mul mac temp si rj
      let res ← wr res j rj
      pure (res, temp, g)
  pure res

/-- `MatrixVectorMul_encryption` (SABER_indcpa.c:392-431); the new content of `ciphertext` is returned. -/
def MatrixVectorMul_encryption (mac : Mac) (seed : List Byte) (skpv : List (List (BitVec 16))) (ciphertext : List Byte) (gs : GS) :
    LM (List Byte) := do
  let (ciphertext, _) ← loop K (ciphertext, gs) fun i (ciphertext, g) => do
    let res ← loop N (uninit 16 131 N) fun j r => wr r j 0
    let acc ← loop N (uninit 16 132 N) fun j r => wr r j 0
    let (res, _, g) ← loop K (res, acc, g) fun j (res, acc, g) => do
      let (acc, g) ← GenMatrix_poly acc seed 0 (i + j) g
      let sj ← rd skpv j
      let res ← pol_mul mac acc sj res
      pure (res, acc, g)
    let res ← roundRow res
    let ciphertext ← POLp2BS ciphertext 0 res i
    pure (ciphertext, g)
  pure ciphertext

/-- `VectorMul` (SABER_indcpa.c:464-476); `byte_array` points to `byte_array[off]`; the new content of `res` is returned. -/
def VectorMul (mac : Mac) (byte_array : List Byte) (off : Nat) (skpv : List (List (BitVec 16))) (res : List (BitVec 16)) :
    LM (List (BitVec 16)) := do
  let (res, _) ← loop K (res, uninit 16 133 N) fun j (res, pkcl) => do
    let pkcl ← BS2POLp j byte_array off pkcl
    let sj ← rd skpv j
    let res ← pol_mul mac pkcl sj res
    pure (res, pkcl)
  loop N res fun j res => do
    let x ← rd res j
    wr res j (x &&& 1023)

/-- The loops that reduce a vector modulo `p` (SABER_indcpa.c:298-302 and 341-345). -/
def maskVec (v : List (List (BitVec 16))) : LM (List (List (BitVec 16))) :=
  loop K v fun i v =>
    loop N v fun j v => do
      let vi ← rd v i
      let x ← rd vi j
      let vi ← wr vi j (x &&& 1023)
      wr v i vi

/-- `indcpa_kem_keypair` (SABER_indcpa.c:178-235).  Returns `pk`, `sk` and the state of the generator. -/
def indcpa_kem_keypair {σ : Type} (mac : Mac) (rb : RandomBytes σ) (gs : GS) (pk sk : List Byte) (st : σ) :
    LM (List Byte × List Byte × σ) := do
  let (seed, st) ← random rb (uninit 8 140 SEEDBYTES) 0 SEEDBYTES st
  let seed ← shake128 seed 0 SEEDBYTES seed 0 SEEDBYTES
  let (noiseseed, st) ← random rb (uninit 8 141 32) 0 32 st
  let skpv ← GenSecret (uninitVec 142 K) noiseseed 0
  let res ← loop K (uninitVec 143 K) fun i res => loop N res fun j res => do
    let ri ← rd res i
    let ri ← wr ri j 0
    wr res i ri
  let res ← MatrixVectorMul_keypair mac seed skpv res gs
  let res ← loop K res fun i res => do
    let ri ← rd res i
    let ri ← roundRow ri
    wr res i ri
  let sk ← POLVECq2BS sk 0 skpv
  let pk ← POLVECp2BS pk 0 res
  let pk ← loop SEEDBYTES pk fun i pk => do
    let v ← rd seed i
    wr pk (960 + i) v
  pure (pk, sk, st)

/-- The loops that add the message (SABER_indcpa.c:306-314). -/
def addMsg (m : List Byte) (mOff : Nat) (vprime : List (BitVec 16)) : LM (List (BitVec 16)) :=
  loop 32 vprime fun j v => loop 8 v fun i v => do
    let b ← rdN m (mOff + j)
    let message_bit := n16 ((b >>> i) &&& 1)
    let message_bit := message_bit <<< 9
    addTo v (j * 8 + i) message_bit

/-- `indcpa_kem_enc` (SABER_indcpa.c:238-322); the new content of `ciphertext` is returned. -/
def indcpa_kem_enc (mac : Mac) (gs : GS) (m : List Byte) (mOff : Nat) (noiseseed : List Byte) (seedOff : Nat) (pk : List Byte) (pkOff : Nat)
    (ciphertext : List Byte) : LM (List Byte) := do
  let seed ← loop SEEDBYTES (uninit 8 150 SEEDBYTES) fun i seed => do
    let v ← rd pk (pkOff + (960 + i))
    wr seed i v
  let skpv1 ← GenSecret (uninitVec 151 K) noiseseed seedOff
  let ciphertext ← MatrixVectorMul_encryption mac seed skpv1 ciphertext gs
  let vprime ← loop N (uninit 16 152 N) fun i v => wr v i 0
  let skpv1 ← maskVec skpv1
  let vprime ← VectorMul mac pk pkOff skpv1 vprime
  let vprime ← addMsg m mOff vprime
  let msk_c ← GenCipherText vprime (uninit 8 153 128)
  loop 128 ciphertext fun j c => do
    let v ← rd msk_c j
    wr c (960 + j) v

/-- `indcpa_kem_dec` (SABER_indcpa.c:325-354); the byte array `message_dec` is passed on as `uint16_t *` (line 349). -/
def indcpa_kem_dec (mac : Mac) (sk ciphertext message_dec : List Byte) : LM (List Byte) := do
  let sksv ← BS2POLVECq sk 0 (uninitVec 160 K)
  let v ← loop N (uninit 16 161 N) fun i v => wr v i 0
  let sksv ← maskVec sksv
  let v ← VectorMul mac ciphertext 0 sksv v
  ExtractKeyBits v ciphertext 960 message_dec

/-- `verify` (verify.c:14-25): a `uint32_t` accumulator. -/
def verify (a : List Byte) (aOff : Nat) (b : List Byte) (bOff len : Nat) : LM Int := do
  let r ← loop len (0 : BitVec 32) fun i r => do
    let x ← rd a (aOff + i)
    let y ← rd b (bOff + i)
    pure (r ||| (x ^^^ y).setWidth 32)
  let r := (-r) >>> 31
  pure (r.toNat : Int)

/-- `cmov` (verify.c:28-35) -/
def cmov (r : List Byte) (rOff : Nat) (x : List Byte) (xOff len : Nat) (b : Byte) : LM (List Byte) :=
  let b := BitVec.ofInt 8 (-(prom b))
  loop len r fun i r => do
    let xi ← rd x (xOff + i)
    let ri ← rd r (rOff + i)
    wr r (rOff + i) (ri ^^^ (b &&& (xi ^^^ ri)))

/-- `crypto_kem_keypair` (kem.c:12-25) -/
def crypto_kem_keypair {σ : Type} (mac : Mac) (rb : RandomBytes σ) (gs : GS) (pk sk : List Byte) (st : σ) :
    LM (Int × List Byte × List Byte × σ) := do
  let (pk, sk, st) ← indcpa_kem_keypair mac rb gs pk sk st
  let sk ← loop 992 sk fun i sk => do
    let v ← rd pk i
    wr sk (i + 1248) v
  let sk ← sha3_256 sk (2304 - 64) pk 0 992
  let (sk, st) ← random rb sk (2304 - 32) 32 st
  pure (0, pk, sk, st)

/-- `crypto_kem_enc` (kem.c:27-48) -/
def crypto_kem_enc {σ : Type} (mac : Mac) (rb : RandomBytes σ) (gs : GS) (c k pk : List Byte) (st : σ) :
    LM (Int × List Byte × List Byte × σ) := do
  let (buf, st) ← random rb (uninit 8 171 64) 0 32 st
  let buf ← sha3_256 buf 0 buf 0 32
  let buf ← sha3_256 buf 32 pk 0 992
  let kr ← sha3_512 (uninit 8 170 64) 0 buf 0 64
  let c ← indcpa_kem_enc mac gs buf 0 kr 32 pk 0 c
  let kr ← sha3_256 kr 32 c 0 1088
  let k ← sha3_256 k 0 kr 0 64
  pure (0, c, k, st)

/-- `crypto_kem_dec` (kem.c:51-80) -/
def crypto_kem_dec (mac : Mac) (gs : GS) (k c sk : List Byte) : LM (Int × List Byte) := do
  let buf ← indcpa_kem_dec mac sk c (uninit 8 181 64)
  let buf ← loop 32 buf fun i buf => do
    let v ← rd sk (2304 - 64 + i)
    wr buf (32 + i) v
  let kr ← sha3_512 (uninit 8 182 64) 0 buf 0 64
  let cmp ← indcpa_kem_enc mac gs buf 0 kr 32 sk 1248 (uninit 8 180 1088)
  let fail ← verify c 0 cmp 0 1088
  let kr ← sha3_256 kr 32 c 0 1088
  let kr ← cmov kr 0 sk (2304 - 32) 32 (BitVec.ofInt 8 fail)
  let k ← sha3_256 k 0 kr 0 64
  pure (0, k)

end Linked

end Saber.Leak.M0
