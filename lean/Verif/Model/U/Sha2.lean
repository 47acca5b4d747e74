import Verif.CSem
/-!
# `Variants/uSaber-90s/ref/sha256.c` and `sha512.c`

The pointer `in` is a pair of an array and an offset; `in += inlen; inlen &= 63; in -= inlen` is computed on the offset.  The macros
`F`, `M` and `EXPAND` are functions of the variables they assign.
-/
namespace Saber.U

/-! ### `sha256.c` -/
namespace Sha256

/-- `load_bigendian` (sha256.c:7-15). -/
def load_bigendian (x : List Byte) (off : Nat) : CM (BitVec 32) := do
  let x0 ← rd x (off + 0)
  let x1 ← rd x (off + 1)
  let x2 ← rd x (off + 2)
  let x3 ← rd x (off + 3)
  pure (x3.setWidth 32 ||| (x2.setWidth 32 <<< 8) ||| (x1.setWidth 32 <<< 16) ||| (x0.setWidth 32 <<< 24))

/-- `store_bigendian` (sha256.c:17-23). -/
def store_bigendian (x : List Byte) (off : Nat) (u : BitVec 32) : CM (List Byte) := do
  let x ← wr x (off + 3) (u.setWidth 8)
  let u := u >>> 8
  let x ← wr x (off + 2) (u.setWidth 8)
  let u := u >>> 8
  let x ← wr x (off + 1) (u.setWidth 8)
  let u := u >>> 8
  let x ← wr x (off + 0) (u.setWidth 8)
  pure x

/-- `ROTR` (sha256.c:26) -/
def ROTR (x : BitVec 32) (c : Nat) : BitVec 32 := (x >>> c) ||| (x <<< (32 - c))
/-- `Ch` (sha256.c:28) -/
def Ch (x y z : BitVec 32) : BitVec 32 := (x &&& y) ^^^ (~~~x &&& z)
/-- `Maj` (sha256.c:29) -/
def Maj (x y z : BitVec 32) : BitVec 32 := (x &&& y) ^^^ (x &&& z) ^^^ (y &&& z)
/-- `Sigma0` (sha256.c:30) -/
def Sigma0 (x : BitVec 32) : BitVec 32 := ROTR x 2 ^^^ ROTR x 13 ^^^ ROTR x 22
/-- `Sigma1` (sha256.c:31) -/
def Sigma1 (x : BitVec 32) : BitVec 32 := ROTR x 6 ^^^ ROTR x 11 ^^^ ROTR x 25
/-- `sigma0` (sha256.c:32) -/
def sigma0 (x : BitVec 32) : BitVec 32 := ROTR x 7 ^^^ ROTR x 18 ^^^ (x >>> 3)
/-- `sigma1` (sha256.c:33) -/
def sigma1 (x : BitVec 32) : BitVec 32 := ROTR x 17 ^^^ ROTR x 19 ^^^ (x >>> 10)

/-- The variables `w0, ..., w15` (sha256.c:91-106). -/
structure W where
  (w0 w1 w2 w3 w4 w5 w6 w7 w8 w9 w10 w11 w12 w13 w14 w15 : BitVec 32)

/-- The macro `EXPAND` with `M` (sha256.c:35, 37-53): sixteen assignments in order. -/
def EXPAND (v : W) : W :=
  let ⟨w0, w1, w2, w3, w4, w5, w6, w7, w8, w9, w10, w11, w12, w13, w14, w15⟩ := v
  let w0 := sigma1 w14 + w9 + sigma0 w1 + w0
  let w1 := sigma1 w15 + w10 + sigma0 w2 + w1
  let w2 := sigma1 w0 + w11 + sigma0 w3 + w2
  let w3 := sigma1 w1 + w12 + sigma0 w4 + w3
  let w4 := sigma1 w2 + w13 + sigma0 w5 + w4
  let w5 := sigma1 w3 + w14 + sigma0 w6 + w5
  let w6 := sigma1 w4 + w15 + sigma0 w7 + w6
  let w7 := sigma1 w5 + w0 + sigma0 w8 + w7
  let w8 := sigma1 w6 + w1 + sigma0 w9 + w8
  let w9 := sigma1 w7 + w2 + sigma0 w10 + w9
  let w10 := sigma1 w8 + w3 + sigma0 w11 + w10
  let w11 := sigma1 w9 + w4 + sigma0 w12 + w11
  let w12 := sigma1 w10 + w5 + sigma0 w13 + w12
  let w13 := sigma1 w11 + w6 + sigma0 w14 + w13
  let w14 := sigma1 w12 + w7 + sigma0 w15 + w14
  let w15 := sigma1 w13 + w8 + sigma0 w0 + w15
  ⟨w0, w1, w2, w3, w4, w5, w6, w7, w8, w9, w10, w11, w12, w13, w14, w15⟩

/-- The variables `a, ..., h`. -/
structure V where
  (a b c d e f g h : BitVec 32)

/-- The macro `F` (sha256.c:55-65). -/
def F (v : V) (w k : BitVec 32) : V :=
  let ⟨a, b, c, d, e, f, g, h⟩ := v
  let T1 := h + Sigma1 e + Ch e f g + k + w
  let T2 := Sigma0 a + Maj a b c
  let h := g
  let g := f
  let f := e
  let e := d + T1
  let d := c
  let c := b
  let b := a
  let a := T1 + T2
  ⟨a, b, c, d, e, f, g, h⟩

/-- Rounds 0 to 15 (sha256.c:108-123). -/
def rounds0 (v : V) (w : W) : V :=
  let v := F v w.w0 0x428a2f98
  let v := F v w.w1 0x71374491
  let v := F v w.w2 0xb5c0fbcf
  let v := F v w.w3 0xe9b5dba5
  let v := F v w.w4 0x3956c25b
  let v := F v w.w5 0x59f111f1
  let v := F v w.w6 0x923f82a4
  let v := F v w.w7 0xab1c5ed5
  let v := F v w.w8 0xd807aa98
  let v := F v w.w9 0x12835b01
  let v := F v w.w10 0x243185be
  let v := F v w.w11 0x550c7dc3
  let v := F v w.w12 0x72be5d74
  let v := F v w.w13 0x80deb1fe
  let v := F v w.w14 0x9bdc06a7
  let v := F v w.w15 0xc19bf174
  v

/-- Rounds 16 to 31 (sha256.c:127-142). -/
def rounds1 (v : V) (w : W) : V :=
  let v := F v w.w0 0xe49b69c1
  let v := F v w.w1 0xefbe4786
  let v := F v w.w2 0x0fc19dc6
  let v := F v w.w3 0x240ca1cc
  let v := F v w.w4 0x2de92c6f
  let v := F v w.w5 0x4a7484aa
  let v := F v w.w6 0x5cb0a9dc
  let v := F v w.w7 0x76f988da
  let v := F v w.w8 0x983e5152
  let v := F v w.w9 0xa831c66d
  let v := F v w.w10 0xb00327c8
  let v := F v w.w11 0xbf597fc7
  let v := F v w.w12 0xc6e00bf3
  let v := F v w.w13 0xd5a79147
  let v := F v w.w14 0x06ca6351
  let v := F v w.w15 0x14292967
  v

/-- Rounds 32 to 47 (sha256.c:146-161). -/
def rounds2 (v : V) (w : W) : V :=
  let v := F v w.w0 0x27b70a85
  let v := F v w.w1 0x2e1b2138
  let v := F v w.w2 0x4d2c6dfc
  let v := F v w.w3 0x53380d13
  let v := F v w.w4 0x650a7354
  let v := F v w.w5 0x766a0abb
  let v := F v w.w6 0x81c2c92e
  let v := F v w.w7 0x92722c85
  let v := F v w.w8 0xa2bfe8a1
  let v := F v w.w9 0xa81a664b
  let v := F v w.w10 0xc24b8b70
  let v := F v w.w11 0xc76c51a3
  let v := F v w.w12 0xd192e819
  let v := F v w.w13 0xd6990624
  let v := F v w.w14 0xf40e3585
  let v := F v w.w15 0x106aa070
  v

/-- Rounds 48 to 63 (sha256.c:165-180). -/
def rounds3 (v : V) (w : W) : V :=
  let v := F v w.w0 0x19a4c116
  let v := F v w.w1 0x1e376c08
  let v := F v w.w2 0x2748774c
  let v := F v w.w3 0x34b0bcb5
  let v := F v w.w4 0x391c0cb3
  let v := F v w.w5 0x4ed8aa4a
  let v := F v w.w6 0x5b9cca4f
  let v := F v w.w7 0x682e6ff3
  let v := F v w.w8 0x748f82ee
  let v := F v w.w9 0x78a5636f
  let v := F v w.w10 0x84c87814
  let v := F v w.w11 0x8cc70208
  let v := F v w.w12 0x90befffa
  let v := F v w.w13 0xa4506ceb
  let v := F v w.w14 0xbef9a3f7
  let v := F v w.w15 0xc67178f2
  v

/-- `state[i] += ...` and `a += state[0]`, ...: the sums at the end of the body. -/
def V.add (v state : V) : V := ⟨v.a + state.a, v.b + state.b, v.c + state.c, v.d + state.d, v.e + state.e, v.f + state.f, v.g + state.g, v.h + state.h⟩

/-- The body of the loop over the blocks (sha256.c:91-198): the block starts at `inp[off]`; the variables `a, ..., h` and the array
`state` have the same content at the start of the body. -/
def block (v : V) (inp : List Byte) (off : Nat) : CM V := do
  let state := v
  let w0 ← load_bigendian inp (off + 0)
  let w1 ← load_bigendian inp (off + 4)
  let w2 ← load_bigendian inp (off + 8)
  let w3 ← load_bigendian inp (off + 12)
  let w4 ← load_bigendian inp (off + 16)
  let w5 ← load_bigendian inp (off + 20)
  let w6 ← load_bigendian inp (off + 24)
  let w7 ← load_bigendian inp (off + 28)
  let w8 ← load_bigendian inp (off + 32)
  let w9 ← load_bigendian inp (off + 36)
  let w10 ← load_bigendian inp (off + 40)
  let w11 ← load_bigendian inp (off + 44)
  let w12 ← load_bigendian inp (off + 48)
  let w13 ← load_bigendian inp (off + 52)
  let w14 ← load_bigendian inp (off + 56)
  let w15 ← load_bigendian inp (off + 60)
  let w : W := ⟨w0, w1, w2, w3, w4, w5, w6, w7, w8, w9, w10, w11, w12, w13, w14, w15⟩
  let v := rounds0 v w
  let w := EXPAND w
  let v := rounds1 v w
  let w := EXPAND w
  let v := rounds2 v w
  let w := EXPAND w
  let v := rounds3 v w
  pure (v.add state)

/-- The loop `while (inlen >= 64)` (sha256.c:90-202). -/
def blockLoop (v : V) (inp : List Byte) (off inlen : Nat) : CM V :=
  if 64 ≤ inlen then do
    let v ← block v inp off
    blockLoop v inp (off + 64) (inlen - 64)
  else
    pure v
termination_by inlen
decreasing_by omega

/-- `crypto_hashblocks_sha256` (sha256.c:67-214); the callers ignore the returned `inlen`. -/
def blocks (statebytes inp : List Byte) (inOff inlen : Nat) : CM (List Byte) := do
  let a ← load_bigendian statebytes 0
  let b ← load_bigendian statebytes 4
  let c ← load_bigendian statebytes 8
  let d ← load_bigendian statebytes 12
  let e ← load_bigendian statebytes 16
  let f ← load_bigendian statebytes 20
  let g ← load_bigendian statebytes 24
  let h ← load_bigendian statebytes 28
  let v ← blockLoop ⟨a, b, c, d, e, f, g, h⟩ inp inOff inlen
  let s := statebytes
  let s ← store_bigendian s 0 v.a
  let s ← store_bigendian s 4 v.b
  let s ← store_bigendian s 8 v.c
  let s ← store_bigendian s 12 v.d
  let s ← store_bigendian s 16 v.e
  let s ← store_bigendian s 20 v.f
  let s ← store_bigendian s 24 v.g
  let s ← store_bigendian s 28 v.h
  pure s

/-- `iv` (sha256.c:218-227) -/
def iv : List Byte := [0x6a, 0x09, 0xe6, 0x67, 0xbb, 0x67, 0xae, 0x85, 0x3c, 0x6e, 0xf3, 0x72, 0xa5, 0x4f, 0xf5, 0x3a, 0x51, 0x0e, 0x52, 0x7f, 0x9b, 0x05, 0x68, 0x8c, 0x1f, 0x83, 0xd9, 0xab, 0x5b, 0xe0, 0xcd, 0x19]

end Sha256

open Sha256 in
/-- `sha256` (sha256.c:229-271); `out` and `in` point to `out[outOff]` and `inp[inOff]`.  `size_t` has 64 bits (trusted). -/
def sha256 (out : List Byte) (outOff : Nat) (inp : List Byte) (inOff inlen : Nat) : CM (List Byte) := do
  let bits := BitVec.ofNat 64 inlen <<< 3
  let h ← loop 32 (uninit 8 70 32) fun i h => do
    let x ← rd iv i
    wr h i x
  let h ← blocks h inp inOff inlen
  let inOff := inOff + inlen
  let inlen := inlen % 64
  let inOff := inOff - inlen
  let padded ← loop inlen (uninit 8 71 128) fun i padded => do
    let x ← rd inp (inOff + i)
    wr padded i x
  let padded ← wr padded inlen 0x80
  let h ← if inlen < 56 then do
      let padded ← loop (56 - (inlen + 1)) padded fun i padded => wr padded (inlen + 1 + i) 0
      let padded ← wr padded 56 ((bits >>> 56).setWidth 8)
      let padded ← wr padded 57 ((bits >>> 48).setWidth 8)
      let padded ← wr padded 58 ((bits >>> 40).setWidth 8)
      let padded ← wr padded 59 ((bits >>> 32).setWidth 8)
      let padded ← wr padded 60 ((bits >>> 24).setWidth 8)
      let padded ← wr padded 61 ((bits >>> 16).setWidth 8)
      let padded ← wr padded 62 ((bits >>> 8).setWidth 8)
      let padded ← wr padded 63 (bits.setWidth 8)
      blocks h padded 0 64
    else do
      let padded ← loop (120 - (inlen + 1)) padded fun i padded => wr padded (inlen + 1 + i) 0
      let padded ← wr padded 120 ((bits >>> 56).setWidth 8)
      let padded ← wr padded 121 ((bits >>> 48).setWidth 8)
      let padded ← wr padded 122 ((bits >>> 40).setWidth 8)
      let padded ← wr padded 123 ((bits >>> 32).setWidth 8)
      let padded ← wr padded 124 ((bits >>> 24).setWidth 8)
      let padded ← wr padded 125 ((bits >>> 16).setWidth 8)
      let padded ← wr padded 126 ((bits >>> 8).setWidth 8)
      let padded ← wr padded 127 (bits.setWidth 8)
      blocks h padded 0 128
  loop 32 out fun i out => do
    let x ← rd h i
    wr out (outOff + i) x

/-! ### `sha512.c` -/
namespace Sha512

/-- `load_bigendian` (sha512.c:9-21). -/
def load_bigendian (x : List Byte) (off : Nat) : CM (BitVec 64) := do
  let x0 ← rd x (off + 0)
  let x1 ← rd x (off + 1)
  let x2 ← rd x (off + 2)
  let x3 ← rd x (off + 3)
  let x4 ← rd x (off + 4)
  let x5 ← rd x (off + 5)
  let x6 ← rd x (off + 6)
  let x7 ← rd x (off + 7)
  pure (x7.setWidth 64 ||| (x6.setWidth 64 <<< 8) ||| (x5.setWidth 64 <<< 16) ||| (x4.setWidth 64 <<< 24) ||| (x3.setWidth 64 <<< 32) ||| (x2.setWidth 64 <<< 40) ||| (x1.setWidth 64 <<< 48) ||| (x0.setWidth 64 <<< 56))

/-- `store_bigendian` (sha512.c:23-33). -/
def store_bigendian (x : List Byte) (off : Nat) (u : BitVec 64) : CM (List Byte) := do
  let x ← wr x (off + 7) (u.setWidth 8)
  let u := u >>> 8
  let x ← wr x (off + 6) (u.setWidth 8)
  let u := u >>> 8
  let x ← wr x (off + 5) (u.setWidth 8)
  let u := u >>> 8
  let x ← wr x (off + 4) (u.setWidth 8)
  let u := u >>> 8
  let x ← wr x (off + 3) (u.setWidth 8)
  let u := u >>> 8
  let x ← wr x (off + 2) (u.setWidth 8)
  let u := u >>> 8
  let x ← wr x (off + 1) (u.setWidth 8)
  let u := u >>> 8
  let x ← wr x (off + 0) (u.setWidth 8)
  pure x

/-- `ROTR` (sha512.c:36) -/
def ROTR (x : BitVec 64) (c : Nat) : BitVec 64 := (x >>> c) ||| (x <<< (64 - c))
/-- `Ch` (sha512.c:38) -/
def Ch (x y z : BitVec 64) : BitVec 64 := (x &&& y) ^^^ (~~~x &&& z)
/-- `Maj` (sha512.c:39) -/
def Maj (x y z : BitVec 64) : BitVec 64 := (x &&& y) ^^^ (x &&& z) ^^^ (y &&& z)
/-- `Sigma0` (sha512.c:40) -/
def Sigma0 (x : BitVec 64) : BitVec 64 := ROTR x 28 ^^^ ROTR x 34 ^^^ ROTR x 39
/-- `Sigma1` (sha512.c:41) -/
def Sigma1 (x : BitVec 64) : BitVec 64 := ROTR x 14 ^^^ ROTR x 18 ^^^ ROTR x 41
/-- `sigma0` (sha512.c:42) -/
def sigma0 (x : BitVec 64) : BitVec 64 := ROTR x 1 ^^^ ROTR x 8 ^^^ (x >>> 7)
/-- `sigma1` (sha512.c:43) -/
def sigma1 (x : BitVec 64) : BitVec 64 := ROTR x 19 ^^^ ROTR x 61 ^^^ (x >>> 6)

/-- The variables `w0, ..., w15` (sha512.c:101-116). -/
structure W where
  (w0 w1 w2 w3 w4 w5 w6 w7 w8 w9 w10 w11 w12 w13 w14 w15 : BitVec 64)

/-- The macro `EXPAND` with `M` (sha512.c:45, 47-63): sixteen assignments in order. -/
def EXPAND (v : W) : W :=
  let ⟨w0, w1, w2, w3, w4, w5, w6, w7, w8, w9, w10, w11, w12, w13, w14, w15⟩ := v
  let w0 := sigma1 w14 + w9 + sigma0 w1 + w0
  let w1 := sigma1 w15 + w10 + sigma0 w2 + w1
  let w2 := sigma1 w0 + w11 + sigma0 w3 + w2
  let w3 := sigma1 w1 + w12 + sigma0 w4 + w3
  let w4 := sigma1 w2 + w13 + sigma0 w5 + w4
  let w5 := sigma1 w3 + w14 + sigma0 w6 + w5
  let w6 := sigma1 w4 + w15 + sigma0 w7 + w6
  let w7 := sigma1 w5 + w0 + sigma0 w8 + w7
  let w8 := sigma1 w6 + w1 + sigma0 w9 + w8
  let w9 := sigma1 w7 + w2 + sigma0 w10 + w9
  let w10 := sigma1 w8 + w3 + sigma0 w11 + w10
  let w11 := sigma1 w9 + w4 + sigma0 w12 + w11
  let w12 := sigma1 w10 + w5 + sigma0 w13 + w12
  let w13 := sigma1 w11 + w6 + sigma0 w14 + w13
  let w14 := sigma1 w12 + w7 + sigma0 w15 + w14
  let w15 := sigma1 w13 + w8 + sigma0 w0 + w15
  ⟨w0, w1, w2, w3, w4, w5, w6, w7, w8, w9, w10, w11, w12, w13, w14, w15⟩

/-- The variables `a, ..., h`. -/
structure V where
  (a b c d e f g h : BitVec 64)

/-- The macro `F` (sha512.c:65-75). -/
def F (v : V) (w k : BitVec 64) : V :=
  let ⟨a, b, c, d, e, f, g, h⟩ := v
  let T1 := h + Sigma1 e + Ch e f g + k + w
  let T2 := Sigma0 a + Maj a b c
  let h := g
  let g := f
  let f := e
  let e := d + T1
  let d := c
  let c := b
  let b := a
  let a := T1 + T2
  ⟨a, b, c, d, e, f, g, h⟩

/-- Rounds 0 to 15 (sha512.c:118-133). -/
def rounds0 (v : V) (w : W) : V :=
  let v := F v w.w0 0x428a2f98d728ae22
  let v := F v w.w1 0x7137449123ef65cd
  let v := F v w.w2 0xb5c0fbcfec4d3b2f
  let v := F v w.w3 0xe9b5dba58189dbbc
  let v := F v w.w4 0x3956c25bf348b538
  let v := F v w.w5 0x59f111f1b605d019
  let v := F v w.w6 0x923f82a4af194f9b
  let v := F v w.w7 0xab1c5ed5da6d8118
  let v := F v w.w8 0xd807aa98a3030242
  let v := F v w.w9 0x12835b0145706fbe
  let v := F v w.w10 0x243185be4ee4b28c
  let v := F v w.w11 0x550c7dc3d5ffb4e2
  let v := F v w.w12 0x72be5d74f27b896f
  let v := F v w.w13 0x80deb1fe3b1696b1
  let v := F v w.w14 0x9bdc06a725c71235
  let v := F v w.w15 0xc19bf174cf692694
  v

/-- Rounds 16 to 31 (sha512.c:137-152). -/
def rounds1 (v : V) (w : W) : V :=
  let v := F v w.w0 0xe49b69c19ef14ad2
  let v := F v w.w1 0xefbe4786384f25e3
  let v := F v w.w2 0x0fc19dc68b8cd5b5
  let v := F v w.w3 0x240ca1cc77ac9c65
  let v := F v w.w4 0x2de92c6f592b0275
  let v := F v w.w5 0x4a7484aa6ea6e483
  let v := F v w.w6 0x5cb0a9dcbd41fbd4
  let v := F v w.w7 0x76f988da831153b5
  let v := F v w.w8 0x983e5152ee66dfab
  let v := F v w.w9 0xa831c66d2db43210
  let v := F v w.w10 0xb00327c898fb213f
  let v := F v w.w11 0xbf597fc7beef0ee4
  let v := F v w.w12 0xc6e00bf33da88fc2
  let v := F v w.w13 0xd5a79147930aa725
  let v := F v w.w14 0x06ca6351e003826f
  let v := F v w.w15 0x142929670a0e6e70
  v

/-- Rounds 32 to 47 (sha512.c:156-171). -/
def rounds2 (v : V) (w : W) : V :=
  let v := F v w.w0 0x27b70a8546d22ffc
  let v := F v w.w1 0x2e1b21385c26c926
  let v := F v w.w2 0x4d2c6dfc5ac42aed
  let v := F v w.w3 0x53380d139d95b3df
  let v := F v w.w4 0x650a73548baf63de
  let v := F v w.w5 0x766a0abb3c77b2a8
  let v := F v w.w6 0x81c2c92e47edaee6
  let v := F v w.w7 0x92722c851482353b
  let v := F v w.w8 0xa2bfe8a14cf10364
  let v := F v w.w9 0xa81a664bbc423001
  let v := F v w.w10 0xc24b8b70d0f89791
  let v := F v w.w11 0xc76c51a30654be30
  let v := F v w.w12 0xd192e819d6ef5218
  let v := F v w.w13 0xd69906245565a910
  let v := F v w.w14 0xf40e35855771202a
  let v := F v w.w15 0x106aa07032bbd1b8
  v

/-- Rounds 48 to 63 (sha512.c:175-190). -/
def rounds3 (v : V) (w : W) : V :=
  let v := F v w.w0 0x19a4c116b8d2d0c8
  let v := F v w.w1 0x1e376c085141ab53
  let v := F v w.w2 0x2748774cdf8eeb99
  let v := F v w.w3 0x34b0bcb5e19b48a8
  let v := F v w.w4 0x391c0cb3c5c95a63
  let v := F v w.w5 0x4ed8aa4ae3418acb
  let v := F v w.w6 0x5b9cca4f7763e373
  let v := F v w.w7 0x682e6ff3d6b2b8a3
  let v := F v w.w8 0x748f82ee5defb2fc
  let v := F v w.w9 0x78a5636f43172f60
  let v := F v w.w10 0x84c87814a1f0ab72
  let v := F v w.w11 0x8cc702081a6439ec
  let v := F v w.w12 0x90befffa23631e28
  let v := F v w.w13 0xa4506cebde82bde9
  let v := F v w.w14 0xbef9a3f7b2c67915
  let v := F v w.w15 0xc67178f2e372532b
  v

/-- Rounds 64 to 79 (sha512.c:194-209). -/
def rounds4 (v : V) (w : W) : V :=
  let v := F v w.w0 0xca273eceea26619c
  let v := F v w.w1 0xd186b8c721c0c207
  let v := F v w.w2 0xeada7dd6cde0eb1e
  let v := F v w.w3 0xf57d4f7fee6ed178
  let v := F v w.w4 0x06f067aa72176fba
  let v := F v w.w5 0x0a637dc5a2c898a6
  let v := F v w.w6 0x113f9804bef90dae
  let v := F v w.w7 0x1b710b35131c471b
  let v := F v w.w8 0x28db77f523047d84
  let v := F v w.w9 0x32caab7b40c72493
  let v := F v w.w10 0x3c9ebe0a15c9bebc
  let v := F v w.w11 0x431d67c49c100d4c
  let v := F v w.w12 0x4cc5d4becb3e42b6
  let v := F v w.w13 0x597f299cfc657e2a
  let v := F v w.w14 0x5fcb6fab3ad6faec
  let v := F v w.w15 0x6c44198c4a475817
  v

/-- `state[i] += ...` and `a += state[0]`, ...: the sums at the end of the body. -/
def V.add (v state : V) : V := ⟨v.a + state.a, v.b + state.b, v.c + state.c, v.d + state.d, v.e + state.e, v.f + state.f, v.g + state.g, v.h + state.h⟩

/-- The body of the loop over the blocks (sha512.c:101-227): the block starts at `inp[off]`; the variables `a, ..., h` and the array
`state` have the same content at the start of the body. -/
def block (v : V) (inp : List Byte) (off : Nat) : CM V := do
  let state := v
  let w0 ← load_bigendian inp (off + 0)
  let w1 ← load_bigendian inp (off + 8)
  let w2 ← load_bigendian inp (off + 16)
  let w3 ← load_bigendian inp (off + 24)
  let w4 ← load_bigendian inp (off + 32)
  let w5 ← load_bigendian inp (off + 40)
  let w6 ← load_bigendian inp (off + 48)
  let w7 ← load_bigendian inp (off + 56)
  let w8 ← load_bigendian inp (off + 64)
  let w9 ← load_bigendian inp (off + 72)
  let w10 ← load_bigendian inp (off + 80)
  let w11 ← load_bigendian inp (off + 88)
  let w12 ← load_bigendian inp (off + 96)
  let w13 ← load_bigendian inp (off + 104)
  let w14 ← load_bigendian inp (off + 112)
  let w15 ← load_bigendian inp (off + 120)
  let w : W := ⟨w0, w1, w2, w3, w4, w5, w6, w7, w8, w9, w10, w11, w12, w13, w14, w15⟩
  let v := rounds0 v w
  let w := EXPAND w
  let v := rounds1 v w
  let w := EXPAND w
  let v := rounds2 v w
  let w := EXPAND w
  let v := rounds3 v w
  let w := EXPAND w
  let v := rounds4 v w
  pure (v.add state)

/-- The loop `while (inlen >= 128)` (sha512.c:100-231). -/
def blockLoop (v : V) (inp : List Byte) (off inlen : Nat) : CM V :=
  if 128 ≤ inlen then do
    let v ← block v inp off
    blockLoop v inp (off + 128) (inlen - 128)
  else
    pure v
termination_by inlen
decreasing_by omega

/-- `crypto_hashblocks_sha512` (sha512.c:77-243); the callers ignore the returned `inlen`. -/
def blocks (statebytes inp : List Byte) (inOff inlen : Nat) : CM (List Byte) := do
  let a ← load_bigendian statebytes 0
  let b ← load_bigendian statebytes 8
  let c ← load_bigendian statebytes 16
  let d ← load_bigendian statebytes 24
  let e ← load_bigendian statebytes 32
  let f ← load_bigendian statebytes 40
  let g ← load_bigendian statebytes 48
  let h ← load_bigendian statebytes 56
  let v ← blockLoop ⟨a, b, c, d, e, f, g, h⟩ inp inOff inlen
  let s := statebytes
  let s ← store_bigendian s 0 v.a
  let s ← store_bigendian s 8 v.b
  let s ← store_bigendian s 16 v.c
  let s ← store_bigendian s 24 v.d
  let s ← store_bigendian s 32 v.e
  let s ← store_bigendian s 40 v.f
  let s ← store_bigendian s 48 v.g
  let s ← store_bigendian s 56 v.h
  pure s

/-- `iv` (sha512.c:247-256) -/
def iv : List Byte := [0x6a, 0x09, 0xe6, 0x67, 0xf3, 0xbc, 0xc9, 0x08, 0xbb, 0x67, 0xae, 0x85, 0x84, 0xca, 0xa7, 0x3b, 0x3c, 0x6e, 0xf3, 0x72, 0xfe, 0x94, 0xf8, 0x2b, 0xa5, 0x4f, 0xf5, 0x3a, 0x5f, 0x1d, 0x36, 0xf1, 0x51, 0x0e, 0x52, 0x7f, 0xad, 0xe6, 0x82, 0xd1, 0x9b, 0x05, 0x68, 0x8c, 0x2b, 0x3e, 0x6c, 0x1f, 0x1f, 0x83, 0xd9, 0xab, 0xfb, 0x41, 0xbd, 0x6b, 0x5b, 0xe0, 0xcd, 0x19, 0x13, 0x7e, 0x21, 0x79]

end Sha512

open Sha512 in
/-- `sha512` (sha512.c:258-302); `out` and `in` point to `out[outOff]` and `inp[inOff]`.  `size_t` has 64 bits (trusted). -/
def sha512 (out : List Byte) (outOff : Nat) (inp : List Byte) (inOff inlen : Nat) : CM (List Byte) := do
  let bytes := BitVec.ofNat 64 inlen
  let h ← loop 64 (uninit 8 70 64) fun i h => do
    let x ← rd iv i
    wr h i x
  let h ← blocks h inp inOff inlen
  let inOff := inOff + inlen
  let inlen := inlen % 128
  let inOff := inOff - inlen
  let padded ← loop inlen (uninit 8 71 256) fun i padded => do
    let x ← rd inp (inOff + i)
    wr padded i x
  let padded ← wr padded inlen 0x80
  let h ← if inlen < 112 then do
      let padded ← loop (119 - (inlen + 1)) padded fun i padded => wr padded (inlen + 1 + i) 0
      let padded ← wr padded 119 ((bytes >>> 61).setWidth 8)
      let padded ← wr padded 120 ((bytes >>> 53).setWidth 8)
      let padded ← wr padded 121 ((bytes >>> 45).setWidth 8)
      let padded ← wr padded 122 ((bytes >>> 37).setWidth 8)
      let padded ← wr padded 123 ((bytes >>> 29).setWidth 8)
      let padded ← wr padded 124 ((bytes >>> 21).setWidth 8)
      let padded ← wr padded 125 ((bytes >>> 13).setWidth 8)
      let padded ← wr padded 126 ((bytes >>> 5).setWidth 8)
      let padded ← wr padded 127 ((bytes <<< 3).setWidth 8)
      blocks h padded 0 128
    else do
      let padded ← loop (247 - (inlen + 1)) padded fun i padded => wr padded (inlen + 1 + i) 0
      let padded ← wr padded 247 ((bytes >>> 61).setWidth 8)
      let padded ← wr padded 248 ((bytes >>> 53).setWidth 8)
      let padded ← wr padded 249 ((bytes >>> 45).setWidth 8)
      let padded ← wr padded 250 ((bytes >>> 37).setWidth 8)
      let padded ← wr padded 251 ((bytes >>> 29).setWidth 8)
      let padded ← wr padded 252 ((bytes >>> 21).setWidth 8)
      let padded ← wr padded 253 ((bytes >>> 13).setWidth 8)
      let padded ← wr padded 254 ((bytes >>> 5).setWidth 8)
      let padded ← wr padded 255 ((bytes <<< 3).setWidth 8)
      blocks h padded 0 256
  loop 64 out fun i out => do
    let x ← rd h i
    wr out (outOff + i) x

end Saber.U
