import Verif.Model.U.Kem
import Verif.Model.Leak.Ref
/-!
# The uSaber and 90s variants with events

Generated by `tools/leakgen.py` from Model/U/Aes.lean, Model/U/Sha2.lean, Model/U/Poly.lean, Model/U/Indcpa.lean, Model/U/Kem.lean: the same code over the operations of `Model/Leak/Monad.lean`.  The erasure theorems in
`Proof/Leak` say that leaving out the events gives the model.  A condition that is fixed by the build configuration has no event.
-/
namespace Saber.Leak.U
open Saber.U


/-! ## U/Aes -/

namespace Aes
open Saber.U.Aes

/-- `br_dec32le` (aes256ctr.c:29-35). -/
def br_dec32le (src : List Byte) (off : Nat) : LM (BitVec 32) := do
  let s0 ← rd src (off + 0)
  let s1 ← rd src (off + 1)
  let s2 ← rd src (off + 2)
  let s3 ← rd src (off + 3)
  pure (s0.setWidth 32 ||| (s1.setWidth 32 <<< 8) ||| (s2.setWidth 32 <<< 16) ||| (s3.setWidth 32 <<< 24))

/-- `br_range_dec32le` (aes256ctr.c:37-43). -/
def br_range_dec32le (v : List (BitVec 32)) (num : Nat) (src : List Byte) (off : Nat) : LM (List (BitVec 32)) :=
  loop num v fun i v => do
    let x ← br_dec32le src (off + 4 * i)
    wr v i x

/-- `br_enc32le` (aes256ctr.c:52-58). -/
def br_enc32le (dst : List Byte) (off : Nat) (x : BitVec 32) : LM (List Byte) := do
  let dst ← wr dst (off + 0) (x.setWidth 8)
  let dst ← wr dst (off + 1) ((x >>> 8).setWidth 8)
  let dst ← wr dst (off + 2) ((x >>> 16).setWidth 8)
  let dst ← wr dst (off + 3) ((x >>> 24).setWidth 8)
  pure dst

/-- `br_range_enc32le` (aes256ctr.c:60-66). -/
def br_range_enc32le (dst : List Byte) (off : Nat) (v : List (BitVec 32)) (num : Nat) : LM (List Byte) :=
  loop num dst fun i dst => do
    let x ← rd v i
    br_enc32le dst (off + 4 * i) x

/-- `br_aes_ct64_interleave_in` (aes256ctr.c:273-299): the values of `*q0` and `*q1`. -/
def interleave_in (w : List (BitVec 32)) (off : Nat) : LM (BitVec 64 × BitVec 64) := do
  let w0 ← rd w (off + 0)
  let w1 ← rd w (off + 1)
  let w2 ← rd w (off + 2)
  let w3 ← rd w (off + 3)
  let x0 := spread (w0.setWidth 64)
  let x1 := spread (w1.setWidth 64)
  let x2 := spread (w2.setWidth 64)
  let x3 := spread (w3.setWidth 64)
  pure (x0 ||| (x2 <<< 8), x1 ||| (x3 <<< 8))

/-- `br_aes_ct64_interleave_out` (aes256ctr.c:301-321). -/
def interleave_out (w : List (BitVec 32)) (off : Nat) (q0 q1 : BitVec 64) : LM (List (BitVec 32)) := do
  let x0 := q0 &&& 0x00FF00FF00FF00FF#64
  let x1 := q1 &&& 0x00FF00FF00FF00FF#64
  let x2 := (q0 >>> 8) &&& 0x00FF00FF00FF00FF#64
  let x3 := (q1 >>> 8) &&& 0x00FF00FF00FF00FF#64
  let w ← wr w (off + 0) (gather x0)
  let w ← wr w (off + 1) (gather x1)
  let w ← wr w (off + 2) (gather x2)
  let w ← wr w (off + 3) (gather x3)
  pure w

/-- The new value of `tmp` (aes256ctr.c:352-357); `nk > 6` is true. -/
def keyTmp (s : Saber.U.Aes.KS) : LM (BitVec 32) :=
  do
  branch (decide (s.j = 0))
  if s.j = 0 then do
    let tmp := (s.tmp <<< 24) ||| (s.tmp >>> 8)
    let rc ← rd Rcon s.k
    pure (sub_word tmp ^^^ rc.setWidth 32)
  else do
  branch (decide (s.j = 4))
  if s.j = 4 then
    pure (sub_word s.tmp)
  else
    pure s.tmp

/-- Body of the first loop of `br_aes_ct64_keysched` (aes256ctr.c:351-364); `nk` is 8, `i` counts from `nk`. -/
def keyStep (i : Nat) (s : Saber.U.Aes.KS) : LM Saber.U.Aes.KS := do
  let tmp ← keyTmp s
  let x ← rd s.skey (8 + i - 8)
  let tmp := tmp ^^^ x
  let skey ← wr s.skey (8 + i) tmp
  let j := s.j + 1
  branch (decide (j = 8))
  if j = 8 then
    pure ⟨skey, tmp, 0, s.k + 1⟩
  else
    pure ⟨skey, tmp, j, s.k⟩

/-- Body of the second loop of `br_aes_ct64_keysched` (aes256ctr.c:366-387), iteration `i / 4`. -/
def keyComp (skey : List (BitVec 32)) (n : Nat) (comp : List (BitVec 64)) : LM (List (BitVec 64)) := do
  let ⟨a, b⟩ ← interleave_in skey (4 * n)
  let q := ortho ⟨a, a, a, a, b, b, b, b⟩
  let comp ← wr comp (2 * n + 0) ((q.q0 &&& 0x1111111111111111#64) ||| (q.q1 &&& 0x2222222222222222#64) |||
    (q.q2 &&& 0x4444444444444444#64) ||| (q.q3 &&& 0x8888888888888888#64))
  wr comp (2 * n + 1) ((q.q4 &&& 0x1111111111111111#64) ||| (q.q5 &&& 0x2222222222222222#64) |||
    (q.q6 &&& 0x4444444444444444#64) ||| (q.q7 &&& 0x8888888888888888#64))

/-- `br_aes_ct64_keysched` (aes256ctr.c:339-388). -/
def keysched (comp_skey : List (BitVec 64)) (key : List Byte) (keyOff : Nat) : LM (List (BitVec 64)) := do
  let skey ← br_range_dec32le (uninit 32 80 60) 8 key keyOff
  let tmp ← rd skey 7
  let s ← loop 52 ⟨skey, tmp, 0, 0⟩ keyStep
  loop 15 comp_skey (keyComp s.skey)

/-- Body of the loop of `br_aes_ct64_skey_expand` (aes256ctr.c:395-410). -/
def expandStep (comp_skey : List (BitVec 64)) (u : Nat) (skey : List (BitVec 64)) : LM (List (BitVec 64)) := do
  let x ← rd comp_skey u
  let x0 := x &&& 0x1111111111111111#64
  let x1 := x &&& 0x2222222222222222#64
  let x2 := x &&& 0x4444444444444444#64
  let x3 := x &&& 0x8888888888888888#64
  let x1 := x1 >>> 1
  let x2 := x2 >>> 2
  let x3 := x3 >>> 3
  let skey ← wr skey (4 * u + 0) ((x0 <<< 4) - x0)
  let skey ← wr skey (4 * u + 1) ((x1 <<< 4) - x1)
  let skey ← wr skey (4 * u + 2) ((x2 <<< 4) - x2)
  wr skey (4 * u + 3) ((x3 <<< 4) - x3)

/-- `br_aes_ct64_skey_expand` (aes256ctr.c:390-411). -/
def skey_expand (skey comp_skey : List (BitVec 64)) : LM (List (BitVec 64)) := loop 30 skey (expandStep comp_skey)

/-- `add_round_key` (aes256ctr.c:413-423). -/
def add_round_key (q : Q (BitVec 64)) (sk : List (BitVec 64)) (off : Nat) : LM (Q (BitVec 64)) := do
  let k0 ← rd sk (off + 0)
  let k1 ← rd sk (off + 1)
  let k2 ← rd sk (off + 2)
  let k3 ← rd sk (off + 3)
  let k4 ← rd sk (off + 4)
  let k5 ← rd sk (off + 5)
  let k6 ← rd sk (off + 6)
  let k7 ← rd sk (off + 7)
  pure ⟨q.q0 ^^^ k0, q.q1 ^^^ k1, q.q2 ^^^ k2, q.q3 ^^^ k3, q.q4 ^^^ k4, q.q5 ^^^ k5, q.q6 ^^^ k6, q.q7 ^^^ k7⟩

/-- `inc4_be` (aes256ctr.c:480-484). -/
def inc4_be (ivw : List (BitVec 32)) (i : Nat) : LM (List (BitVec 32)) := do
  let x ← rd ivw i
  let x := br_swap32 x + 4
  wr ivw i (br_swap32 x)

/-- Body of the loop over the rounds (aes256ctr.c:499-504), iteration `i + 1`. -/
def aesRound (sk_exp : List (BitVec 64)) (i : Nat) (q : Q (BitVec 64)) : LM (Q (BitVec 64)) :=
  let q := bitslice_Sbox q
  let q := shift_rows q
  let q := mix_columns q
  add_round_key q sk_exp ((i + 1) * 8)

/-- `aes_ctr4x` (aes256ctr.c:486-520): `out` points to `out[outOff]`; returns `out` and `ivw`. -/
def aes_ctr4x (out : List Byte) (outOff : Nat) (ivw : List (BitVec 32)) (sk_exp : List (BitVec 64)) :
    LM (List Byte × List (BitVec 32)) := do
  let w ← memcpy (uninit 32 81 16) 0 ivw 0 16
  let ⟨q0, q4⟩ ← interleave_in w 0
  let ⟨q1, q5⟩ ← interleave_in w 4
  let ⟨q2, q6⟩ ← interleave_in w 8
  let ⟨q3, q7⟩ ← interleave_in w 12
  let q := ortho ⟨q0, q1, q2, q3, q4, q5, q6, q7⟩
  let q ← add_round_key q sk_exp 0
  let q ← loop 13 q (aesRound sk_exp)
  let q := bitslice_Sbox q
  let q := shift_rows q
  let q ← add_round_key q sk_exp 112
  let q := ortho q
  let w ← interleave_out w 0 q.q0 q.q4
  let w ← interleave_out w 4 q.q1 q.q5
  let w ← interleave_out w 8 q.q2 q.q6
  let w ← interleave_out w 12 q.q3 q.q7
  let out ← br_range_enc32le out outOff w 16
  let ivw ← inc4_be ivw 3
  let ivw ← inc4_be ivw 7
  let ivw ← inc4_be ivw 11
  let ivw ← inc4_be ivw 15
  pure (out, ivw)

/-- `br_aes_ct64_ctr_init` (aes256ctr.c:522-528). -/
def ctr_init (sk_exp : List (BitVec 64)) (key : List Byte) (keyOff : Nat) : LM (List (BitVec 64)) := do
  let skey ← keysched (uninit 64 82 30) key keyOff
  skey_expand sk_exp skey

/-- The loop `while (len > 64)` and the rest of `br_aes_ct64_ctr_run` (aes256ctr.c:544-554). -/
def ctrLoop (sk_exp : List (BitVec 64)) (ivw : List (BitVec 32)) (data : List Byte) (off len : Nat) : LM (List Byte) :=
  do
  branch (decide (64 < len))
  if 64 < len then do
    let ⟨data, ivw⟩ ← aes_ctr4x data off ivw sk_exp
    ctrLoop sk_exp ivw data (off + 64) (len - 64)
  else do
  branch (decide (0 < len))
  if 0 < len then do
    let ⟨tmp, _⟩ ← aes_ctr4x (uninit 8 83 64) 0 ivw sk_exp
    loop len data fun i data => do
      let x ← rd tmp i
      wr data (off + i) x
  else
    pure data
termination_by len
decreasing_by omega

/-- The initialisation of `ivw` (aes256ctr.c:535-542 and 569-576). -/
def ivInit (ivw : List (BitVec 32)) (iv : List Byte) (ivOff : Nat) (cc : BitVec 32) : LM (List (BitVec 32)) := do
  let ivw ← br_range_dec32le ivw 3 iv ivOff
  let ivw ← memcpy ivw 4 ivw 0 3
  let ivw ← memcpy ivw 8 ivw 0 3
  let ivw ← memcpy ivw 12 ivw 0 3
  let ivw ← wr ivw 3 (br_swap32 cc)
  let ivw ← wr ivw 7 (br_swap32 (cc + 1))
  let ivw ← wr ivw 11 (br_swap32 (cc + 2))
  wr ivw 15 (br_swap32 (cc + 3))

/-- `br_aes_ct64_ctr_run` (aes256ctr.c:530-555). -/
def ctr_run (sk_exp : List (BitVec 64)) (iv : List Byte) (ivOff : Nat) (cc : BitVec 32) (data : List Byte) (off len : Nat) :
    LM (List Byte) := do
  let ivw ← ivInit (uninit 32 84 16) iv ivOff cc
  ctrLoop sk_exp ivw data off len

/-- `aes256ctr_prf` (aes256ctr.c:557-563). -/
def aes256ctr_prf (out : List Byte) (outOff outlen : Nat) (key : List Byte) (keyOff : Nat) (nonce : List Byte) (nonceOff : Nat) :
    LM (List Byte) := do
  let sk_exp ← ctr_init (uninit 64 85 120) key keyOff
  ctr_run sk_exp nonce nonceOff 0 out outOff outlen

/-- `aes256ctr_init` (aes256ctr.c:565-577). -/
def aes256ctr_init (s : Ctx) (key : List Byte) (keyOff : Nat) (nonce : List Byte) (nonceOff : Nat) : LM Ctx := do
  let sk_exp ← ctr_init s.sk_exp key keyOff
  let ivw ← ivInit s.ivw nonce nonceOff 0
  pure ⟨sk_exp, ivw⟩

/-- `aes256ctr_squeezeblocks` (aes256ctr.c:579-586). -/
def aes256ctr_squeezeblocks (out : List Byte) (outOff nblocks : Nat) (s : Ctx) : LM (List Byte × Ctx) :=
  loop nblocks (out, s) fun i ⟨out, s⟩ => do
    let ⟨out, ivw⟩ ← aes_ctr4x out (outOff + 64 * i) s.ivw s.sk_exp
    pure (out, ⟨s.sk_exp, ivw⟩)

end Aes
/-! ## U/Sha2 -/

namespace Sha256
open Saber.U.Sha256

/-- `load_bigendian` (sha256.c:7-15). -/
def load_bigendian (x : List Byte) (off : Nat) : LM (BitVec 32) := do
  let x0 ← rd x (off + 0)
  let x1 ← rd x (off + 1)
  let x2 ← rd x (off + 2)
  let x3 ← rd x (off + 3)
  pure (x3.setWidth 32 ||| (x2.setWidth 32 <<< 8) ||| (x1.setWidth 32 <<< 16) ||| (x0.setWidth 32 <<< 24))

/-- `store_bigendian` (sha256.c:17-23). -/
def store_bigendian (x : List Byte) (off : Nat) (u : BitVec 32) : LM (List Byte) := do
  let x ← wr x (off + 3) (u.setWidth 8)
  let u := u >>> 8
  let x ← wr x (off + 2) (u.setWidth 8)
  let u := u >>> 8
  let x ← wr x (off + 1) (u.setWidth 8)
  let u := u >>> 8
  let x ← wr x (off + 0) (u.setWidth 8)
  pure x

/-- The body of the loop over the blocks (sha256.c:91-198): the block starts at `inp[off]`; the variables `a, ..., h` and the array
`state` have the same content at the start of the body. -/
def block (v : V) (inp : List Byte) (off : Nat) : LM V := do
  let state := v
  let w0 ← load_bigendian inp (off + 0)
  let w1 ← load_bigendian inp (off + 4)
  let w2 ← load_bigendian inp (off + 8)
  let w3 ← load_bigendian inp (off + 12)
  let w4 ← load_bigendian inp (off + 16)
  let w5 ← load_bigendian inp (off + 20)
  let w6 ← load_bigendian inp (off + 24)
  let w7 ← load_bigendian inp (off + 28)
  let w8 ← load_bigendian inp (off + 32)
  let w9 ← load_bigendian inp (off + 36)
  let w10 ← load_bigendian inp (off + 40)
  let w11 ← load_bigendian inp (off + 44)
  let w12 ← load_bigendian inp (off + 48)
  let w13 ← load_bigendian inp (off + 52)
  let w14 ← load_bigendian inp (off + 56)
  let w15 ← load_bigendian inp (off + 60)
  let w : W := ⟨w0, w1, w2, w3, w4, w5, w6, w7, w8, w9, w10, w11, w12, w13, w14, w15⟩
  let v := rounds0 v w
  let w := EXPAND w
  let v := rounds1 v w
  let w := EXPAND w
  let v := rounds2 v w
  let w := EXPAND w
  let v := rounds3 v w
  pure (v.add state)

/-- The loop `while (inlen >= 64)` (sha256.c:90-202). -/
def blockLoop (v : V) (inp : List Byte) (off inlen : Nat) : LM V :=
  do
  branch (decide (64 ≤ inlen))
  if 64 ≤ inlen then do
    let v ← block v inp off
    blockLoop v inp (off + 64) (inlen - 64)
  else
    pure v
termination_by inlen
decreasing_by omega

/-- `crypto_hashblocks_sha256` (sha256.c:67-214); the callers ignore the returned `inlen`. -/
def blocks (statebytes inp : List Byte) (inOff inlen : Nat) : LM (List Byte) := do
  let a ← load_bigendian statebytes 0
  let b ← load_bigendian statebytes 4
  let c ← load_bigendian statebytes 8
  let d ← load_bigendian statebytes 12
  let e ← load_bigendian statebytes 16
  let f ← load_bigendian statebytes 20
  let g ← load_bigendian statebytes 24
  let h ← load_bigendian statebytes 28
  let v ← blockLoop ⟨a, b, c, d, e, f, g, h⟩ inp inOff inlen
  let s := statebytes
  let s ← store_bigendian s 0 v.a
  let s ← store_bigendian s 4 v.b
  let s ← store_bigendian s 8 v.c
  let s ← store_bigendian s 12 v.d
  let s ← store_bigendian s 16 v.e
  let s ← store_bigendian s 20 v.f
  let s ← store_bigendian s 24 v.g
  let s ← store_bigendian s 28 v.h
  pure s

end Sha256
open Saber.Leak.U.Sha256 Saber.U.Sha256 in
/-- `sha256` (sha256.c:229-271); `out` and `in` point to `out[outOff]` and `inp[inOff]`.  `size_t` has 64 bits (trusted). -/
def sha256 (out : List Byte) (outOff : Nat) (inp : List Byte) (inOff inlen : Nat) : LM (List Byte) := do
  let bits := BitVec.ofNat 64 inlen <<< 3
  let h ← loop 32 (uninit 8 70 32) fun i h => do
    let x ← rd iv i
    wr h i x
  let h ← blocks h inp inOff inlen
  let inOff := inOff + inlen
  let inlen := inlen % 64
  let inOff := inOff - inlen
  let padded ← loop inlen (uninit 8 71 128) fun i padded => do
    let x ← rd inp (inOff + i)
    wr padded i x
  let padded ← wr padded inlen 0x80
  branch (decide (inlen < 56))
  let h ← if inlen < 56 then do
      let padded ← loop (56 - (inlen + 1)) padded fun i padded => wr padded (inlen + 1 + i) 0
      let padded ← wr padded 56 ((bits >>> 56).setWidth 8)
      let padded ← wr padded 57 ((bits >>> 48).setWidth 8)
      let padded ← wr padded 58 ((bits >>> 40).setWidth 8)
      let padded ← wr padded 59 ((bits >>> 32).setWidth 8)
      let padded ← wr padded 60 ((bits >>> 24).setWidth 8)
      let padded ← wr padded 61 ((bits >>> 16).setWidth 8)
      let padded ← wr padded 62 ((bits >>> 8).setWidth 8)
      let padded ← wr padded 63 (bits.setWidth 8)
      blocks h padded 0 64
    else do
      let padded ← loop (120 - (inlen + 1)) padded fun i padded => wr padded (inlen + 1 + i) 0
      let padded ← wr padded 120 ((bits >>> 56).setWidth 8)
      let padded ← wr padded 121 ((bits >>> 48).setWidth 8)
      let padded ← wr padded 122 ((bits >>> 40).setWidth 8)
      let padded ← wr padded 123 ((bits >>> 32).setWidth 8)
      let padded ← wr padded 124 ((bits >>> 24).setWidth 8)
      let padded ← wr padded 125 ((bits >>> 16).setWidth 8)
      let padded ← wr padded 126 ((bits >>> 8).setWidth 8)
      let padded ← wr padded 127 (bits.setWidth 8)
      blocks h padded 0 128
  loop 32 out fun i out => do
    let x ← rd h i
    wr out (outOff + i) x

namespace Sha512
open Saber.U.Sha512

/-- `load_bigendian` (sha512.c:9-21). -/
def load_bigendian (x : List Byte) (off : Nat) : LM (BitVec 64) := do
  let x0 ← rd x (off + 0)
  let x1 ← rd x (off + 1)
  let x2 ← rd x (off + 2)
  let x3 ← rd x (off + 3)
  let x4 ← rd x (off + 4)
  let x5 ← rd x (off + 5)
  let x6 ← rd x (off + 6)
  let x7 ← rd x (off + 7)
  pure (x7.setWidth 64 ||| (x6.setWidth 64 <<< 8) ||| (x5.setWidth 64 <<< 16) ||| (x4.setWidth 64 <<< 24) ||| (x3.setWidth 64 <<< 32) ||| (x2.setWidth 64 <<< 40) ||| (x1.setWidth 64 <<< 48) ||| (x0.setWidth 64 <<< 56))

/-- `store_bigendian` (sha512.c:23-33). -/
def store_bigendian (x : List Byte) (off : Nat) (u : BitVec 64) : LM (List Byte) := do
  let x ← wr x (off + 7) (u.setWidth 8)
  let u := u >>> 8
  let x ← wr x (off + 6) (u.setWidth 8)
  let u := u >>> 8
  let x ← wr x (off + 5) (u.setWidth 8)
  let u := u >>> 8
  let x ← wr x (off + 4) (u.setWidth 8)
  let u := u >>> 8
  let x ← wr x (off + 3) (u.setWidth 8)
  let u := u >>> 8
  let x ← wr x (off + 2) (u.setWidth 8)
  let u := u >>> 8
  let x ← wr x (off + 1) (u.setWidth 8)
  let u := u >>> 8
  let x ← wr x (off + 0) (u.setWidth 8)
  pure x

/-- The body of the loop over the blocks (sha512.c:101-227): the block starts at `inp[off]`; the variables `a, ..., h` and the array
`state` have the same content at the start of the body. -/
def block (v : V) (inp : List Byte) (off : Nat) : LM V := do
  let state := v
  let w0 ← load_bigendian inp (off + 0)
  let w1 ← load_bigendian inp (off + 8)
  let w2 ← load_bigendian inp (off + 16)
  let w3 ← load_bigendian inp (off + 24)
  let w4 ← load_bigendian inp (off + 32)
  let w5 ← load_bigendian inp (off + 40)
  let w6 ← load_bigendian inp (off + 48)
  let w7 ← load_bigendian inp (off + 56)
  let w8 ← load_bigendian inp (off + 64)
  let w9 ← load_bigendian inp (off + 72)
  let w10 ← load_bigendian inp (off + 80)
  let w11 ← load_bigendian inp (off + 88)
  let w12 ← load_bigendian inp (off + 96)
  let w13 ← load_bigendian inp (off + 104)
  let w14 ← load_bigendian inp (off + 112)
  let w15 ← load_bigendian inp (off + 120)
  let w : W := ⟨w0, w1, w2, w3, w4, w5, w6, w7, w8, w9, w10, w11, w12, w13, w14, w15⟩
  let v := rounds0 v w
  let w := EXPAND w
  let v := rounds1 v w
  let w := EXPAND w
  let v := rounds2 v w
  let w := EXPAND w
  let v := rounds3 v w
  let w := EXPAND w
  let v := rounds4 v w
  pure (v.add state)

/-- The loop `while (inlen >= 128)` (sha512.c:100-231). -/
def blockLoop (v : V) (inp : List Byte) (off inlen : Nat) : LM V :=
  do
  branch (decide (128 ≤ inlen))
  if 128 ≤ inlen then do
    let v ← block v inp off
    blockLoop v inp (off + 128) (inlen - 128)
  else
    pure v
termination_by inlen
decreasing_by omega

/-- `crypto_hashblocks_sha512` (sha512.c:77-243); the callers ignore the returned `inlen`. -/
def blocks (statebytes inp : List Byte) (inOff inlen : Nat) : LM (List Byte) := do
  let a ← load_bigendian statebytes 0
  let b ← load_bigendian statebytes 8
  let c ← load_bigendian statebytes 16
  let d ← load_bigendian statebytes 24
  let e ← load_bigendian statebytes 32
  let f ← load_bigendian statebytes 40
  let g ← load_bigendian statebytes 48
  let h ← load_bigendian statebytes 56
  let v ← blockLoop ⟨a, b, c, d, e, f, g, h⟩ inp inOff inlen
  let s := statebytes
  let s ← store_bigendian s 0 v.a
  let s ← store_bigendian s 8 v.b
  let s ← store_bigendian s 16 v.c
  let s ← store_bigendian s 24 v.d
  let s ← store_bigendian s 32 v.e
  let s ← store_bigendian s 40 v.f
  let s ← store_bigendian s 48 v.g
  let s ← store_bigendian s 56 v.h
  pure s

end Sha512
open Saber.Leak.U.Sha512 Saber.U.Sha512 in
/-- `sha512` (sha512.c:258-302); `out` and `in` point to `out[outOff]` and `inp[inOff]`.  `size_t` has 64 bits (trusted). -/
def sha512 (out : List Byte) (outOff : Nat) (inp : List Byte) (inOff inlen : Nat) : LM (List Byte) := do
  let bytes := BitVec.ofNat 64 inlen
  let h ← loop 64 (uninit 8 70 64) fun i h => do
    let x ← rd iv i
    wr h i x
  let h ← blocks h inp inOff inlen
  let inOff := inOff + inlen
  let inlen := inlen % 128
  let inOff := inOff - inlen
  let padded ← loop inlen (uninit 8 71 256) fun i padded => do
    let x ← rd inp (inOff + i)
    wr padded i x
  let padded ← wr padded inlen 0x80
  branch (decide (inlen < 112))
  let h ← if inlen < 112 then do
      let padded ← loop (119 - (inlen + 1)) padded fun i padded => wr padded (inlen + 1 + i) 0
      let padded ← wr padded 119 ((bytes >>> 61).setWidth 8)
      let padded ← wr padded 120 ((bytes >>> 53).setWidth 8)
      let padded ← wr padded 121 ((bytes >>> 45).setWidth 8)
      let padded ← wr padded 122 ((bytes >>> 37).setWidth 8)
      let padded ← wr padded 123 ((bytes >>> 29).setWidth 8)
      let padded ← wr padded 124 ((bytes >>> 21).setWidth 8)
      let padded ← wr padded 125 ((bytes >>> 13).setWidth 8)
      let padded ← wr padded 126 ((bytes >>> 5).setWidth 8)
      let padded ← wr padded 127 ((bytes <<< 3).setWidth 8)
      blocks h padded 0 128
    else do
      let padded ← loop (247 - (inlen + 1)) padded fun i padded => wr padded (inlen + 1 + i) 0
      let padded ← wr padded 247 ((bytes >>> 61).setWidth 8)
      let padded ← wr padded 248 ((bytes >>> 53).setWidth 8)
      let padded ← wr padded 249 ((bytes >>> 45).setWidth 8)
      let padded ← wr padded 250 ((bytes >>> 37).setWidth 8)
      let padded ← wr padded 251 ((bytes >>> 29).setWidth 8)
      let padded ← wr padded 252 ((bytes >>> 21).setWidth 8)
      let padded ← wr padded 253 ((bytes >>> 13).setWidth 8)
      let padded ← wr padded 254 ((bytes >>> 5).setWidth 8)
      let padded ← wr padded 255 ((bytes <<< 3).setWidth 8)
      blocks h padded 0 256
  loop 64 out fun i out => do
    let x ← rd h i
    wr out (outOff + i) x

/-! ## U/Poly -/

/-- `saber_aes256ctr_prf` (symmetric-aes.c:7-11); `output`, `input` point to `output[outOff]`, `input[inOff]`. -/
def saber_aes256ctr_prf (output : List Byte) (outOff outlen : Nat) (input : List Byte) (inOff : Nat) : LM (List Byte) := do
  let expnonce : List Byte := List.replicate 12 0
  Aes.aes256ctr_prf output outOff outlen input inOff expnonce 0

/-- The macro `prf` (symmetric.h:15,24).  Where the code passes the same array as output and input, the model passes the array before the
call as input; both functions read all of the input before they write the output. -/
def prf (c : Cfg) (out : List Byte) (outOff outlen : Nat) (inp : List Byte) (inOff inlen : Nat) : LM (List Byte) :=
  if c.s90 then saber_aes256ctr_prf out outOff outlen inp inOff else shake128 out outOff outlen inp inOff inlen

/-- The macro `hash_h` (symmetric.h:12,21). -/
def hash_h (c : Cfg) (out : List Byte) (outOff : Nat) (inp : List Byte) (inOff inlen : Nat) : LM (List Byte) :=
  if c.s90 then sha256 out outOff inp inOff inlen else sha3_256 out outOff inp inOff inlen

/-- The macro `hash_g` (symmetric.h:13,22). -/
def hash_g (c : Cfg) (out : List Byte) (outOff : Nat) (inp : List Byte) (inOff inlen : Nat) : LM (List Byte) :=
  if c.s90 then sha512 out outOff inp inOff inlen else sha3_512 out outOff inp inOff inlen

/-- `POLq2BS` for `SABER_EQ == 12` (pack_unpack.c:100-108) -/
def POLq2BS_12 (bytes : List Byte) (off : Nat) (data : List (BitVec 16)) : LM (List Byte) :=
  loop (N / 2) bytes fun j bytes => do
    let d0 ← rdN data (2 * j + 0)
    let d1 ← rdN data (2 * j + 1)
    wrs bytes (off + 3 * j) (POLq2BS_12Blk d0 d1)

/-- `BS2POLq` for `SABER_EQ == 12` (pack_unpack.c:131-138) -/
def BS2POLq_12 (bytes : List Byte) (off : Nat) (data : List (BitVec 16)) : LM (List (BitVec 16)) :=
  loop (N / 2) data fun j data => do
    let b0 ← rdN bytes (off + 3 * j + 0)
    let b1 ← rdN bytes (off + 3 * j + 1)
    let b2 ← rdN bytes (off + 3 * j + 2)
    wrs data (2 * j) (BS2POLq_12Blk b0 b1 b2)

/-- `POLq2BS` (pack_unpack.c:78-112); the branch `SABER_EQ == 13` is the reference implementation's function. -/
def POLq2BS (c : Cfg) (bytes : List Byte) (off : Nat) (data : List (BitVec 16)) : LM (List Byte) :=
  if c.u then POLq2BS_12 bytes off data else Leak.POLq2BS bytes off data

/-- `BS2POLq` (pack_unpack.c:114-142); the branch `SABER_EQ == 13` is the reference implementation's function. -/
def BS2POLq (c : Cfg) (bytes : List Byte) (off : Nat) (data : List (BitVec 16)) : LM (List (BitVec 16)) :=
  if c.u then BS2POLq_12 bytes off data else Leak.BS2POLq bytes off data

/-- `POLVECq2BS` (pack_unpack.c:173-180) -/
def POLVECq2BS (c : Cfg) (bytes : List Byte) (off : Nat) (data : List (List (BitVec 16))) : LM (List Byte) :=
  loop c.P.L bytes fun i bytes => do
    let row ← rd data i
    POLq2BS c bytes (off + i * c.POLYBYTES) row

/-- `BS2POLVECq` (pack_unpack.c:182-189) -/
def BS2POLVECq (c : Cfg) (bytes : List Byte) (off : Nat) (data : List (List (BitVec 16))) : LM (List (List (BitVec 16))) :=
  loop c.P.L data fun i data => do
    let row ← rd data i
    let row ← BS2POLq c bytes (off + i * c.POLYBYTES) row
    wr data i row

/-- `GenMatrix` (poly.c:39-50); `seed` points to `seed[seedOff]`. -/
def GenMatrix (c : Cfg) (A : List (List (List (BitVec 16)))) (seed : List Byte) (seedOff : Nat) :
    LM (List (List (List (BitVec 16)))) := do
  let buf ← prf c (uninit 8 30 (c.P.L * c.POLYVECBYTES)) 0 (c.P.L * c.POLYVECBYTES) seed seedOff SEEDBYTES
  loop c.P.L A fun i A => do
    let Ai ← rd A i
    let Ai ← BS2POLVECq c buf (i * c.POLYVECBYTES) Ai
    wr A i Ai

/-- The expression `(((b >> k) & 0x03) ^ 2) - 2` (poly.c:75-78); `b` is promoted to `int`, and the shift and the logical operations are on
non-negative values. -/
def twoBits (b k : Nat) : LM (BitVec 16) := do
  pure (u16 (← isub ((((b >>> k) &&& 0x03) ^^^ 2 : Nat) : Int) 2))

/-- The loop at poly.c:69-79; `buf` points to `buf[i * SABER_POLYCOINBYTES]`. -/
def uniformRow (si : List (BitVec 16)) (buf : List Byte) (off : Nat) : LM (List (BitVec 16)) :=
  loop (N / 4) si fun j si => do
    let si ← wr si (4 * j) (← twoBits (← rdN buf (j + off)) 0)
    let si ← wr si (4 * j + 1) (← twoBits (← rdN buf (j + off)) 2)
    let si ← wr si (4 * j + 2) (← twoBits (← rdN buf (j + off)) 4)
    wr si (4 * j + 3) (← twoBits (← rdN buf (j + off)) 6)

/-- One row of `GenSecret`, by configuration (poly.c:62-80). -/
def secretRow (c : Cfg) (si : List (BitVec 16)) (buf : List Byte) (off : Nat) : LM (List (BitVec 16)) :=
  if c.u then uniformRow si buf off else cbd c.P si buf off

/-- `GenSecret` (poly.c:52-82); `seed` points to `seed[seedOff]`. -/
def GenSecret (c : Cfg) (s : List (List (BitVec 16))) (seed : List Byte) (seedOff : Nat) : LM (List (List (BitVec 16))) := do
  let buf ← prf c (uninit 8 31 (c.P.L * c.POLYCOINBYTES)) 0 (c.P.L * c.POLYCOINBYTES) seed seedOff NOISE_SEEDBYTES
  loop c.P.L s fun i s => do
    let si ← rd s i
    let si ← secretRow c si buf (i * c.POLYCOINBYTES)
    wr s i si

/-! ## U/Indcpa -/

/-- The rounding loops (SABER_indcpa.c:38-44 and 68-74). -/
def roundVec (c : Cfg) (b : List (List (BitVec 16))) : LM (List (List (BitVec 16))) :=
  loop c.P.L b fun i b =>
    loop N b fun j b => do
      let bi ← rd b i
      let x ← rd bi j
      let bi ← wr bi j (u16 (isar (← iadd (prom x) (Saber.U.h1 c)) (c.EQ - EP)))
      wr b i bi

/-- `indcpa_kem_keypair` (SABER_indcpa.c:19-49); `pk`, `sk` are the objects passed by the caller. Returns `pk`, `sk`, state. -/
def indcpa_kem_keypair {σ : Type} (c : Cfg) (rb : RandomBytes σ) (pk sk : List Byte) (st : σ) :
    LM (List Byte × List Byte × σ) := do
  let (seed_A, st) ← random rb (uninit 8 40 SEEDBYTES) 0 SEEDBYTES st
  let seed_A ← prf c seed_A 0 SEEDBYTES seed_A 0 SEEDBYTES
  let (seed_s, st) ← random rb (uninit 8 41 NOISE_SEEDBYTES) 0 NOISE_SEEDBYTES st
  let A ← GenMatrix c (uninitMat 42 c.P.L) seed_A 0
  let s ← GenSecret c (uninitVec 43 c.P.L) seed_s 0
  let b ← MatrixVectorMul c.P A s (zeroVec c.P.L) 1
  let b ← roundVec c b
  let sk ← POLVECq2BS c sk 0 s
  let pk ← POLVECp2BS c.P pk 0 b
  let pk ← memcpy pk c.POLYVECCOMPRESSEDBYTES seed_A 0 SEEDBYTES
  pure (pk, sk, st)

/-- The loop at SABER_indcpa.c:82-85. -/
def encRound (c : Cfg) (vp mp : List (BitVec 16)) : LM (List (BitVec 16)) :=
  loop N vp fun j vp => do
    let v ← rd vp j
    let m ← rd mp j
    wr vp j (u16 (isar (← iadd (← isub (prom v) (← ishl (prom m) (EP - 1))) (Saber.U.h1 c)) (EP - c.P.ET)))

/-- `indcpa_kem_enc` (SABER_indcpa.c:51-88); the pointers `m`, `seed_sp`, `pk` point into the given objects at the given offsets. -/
def indcpa_kem_enc (c : Cfg) (m : List Byte) (mOff : Nat) (seed_sp : List Byte) (seedOff : Nat) (pk : List Byte) (pkOff : Nat)
    (ciphertext : List Byte) : LM (List Byte) := do
  let A ← GenMatrix c (uninitMat 44 c.P.L) pk (pkOff + c.POLYVECCOMPRESSEDBYTES)
  let sp ← GenSecret c (uninitVec 45 c.P.L) seed_sp seedOff
  let bp ← MatrixVectorMul c.P A sp (zeroVec c.P.L) 0
  let bp ← roundVec c bp
  let ciphertext ← POLVECp2BS c.P ciphertext 0 bp
  let b ← BS2POLVECp c.P pk pkOff (uninitVec 46 c.P.L)
  let vp ← InnerProd c.P b sp (List.replicate N 0)
  let mp ← BS2POLmsg m mOff (uninit 16 47 N)
  let vp ← encRound c vp mp
  POLT2BS c.P ciphertext c.POLYVECCOMPRESSEDBYTES vp

/-- The loop at SABER_indcpa.c:104-107. -/
def decRound (c : Cfg) (v cm : List (BitVec 16)) : LM (List (BitVec 16)) :=
  loop N v fun i v => do
    let x ← rd v i
    let y ← rd cm i
    wr v i (u16 (isar (← isub (← iadd (prom x) (Saber.U.h2 c)) (← ishl (prom y) (EP - c.P.ET))) (EP - 1)))

/-- `indcpa_kem_dec` (SABER_indcpa.c:90-110); `sk` and `ciphertext` point to the start of the given objects; the new content of `m`
is returned. -/
def indcpa_kem_dec (c : Cfg) (sk ciphertext m : List Byte) : LM (List Byte) := do
  let s ← BS2POLVECq c sk 0 (uninitVec 48 c.P.L)
  let b ← BS2POLVECp c.P ciphertext 0 (uninitVec 49 c.P.L)
  let v ← InnerProd c.P b s (List.replicate N 0)
  let cm ← BS2POLT c.P ciphertext c.POLYVECCOMPRESSEDBYTES (uninit 16 50 N)
  let v ← decRound c v cm
  POLmsg2BS m 0 v

/-! ## U/Kem -/

/-- `crypto_kem_keypair` (kem.c:14-27).  Returns the return code, `pk`, `sk` and the generator state. -/
def crypto_kem_keypair {σ : Type} (cfg : Cfg) (rb : RandomBytes σ) (pk sk : List Byte) (st : σ) :
    LM (Int × List Byte × List Byte × σ) := do
  let (pk, sk, st) ← indcpa_kem_keypair cfg rb pk sk st
  let sk ← loop cfg.INDCPA_PUBLICKEYBYTES sk fun i sk => do
    let v ← rd pk i
    wr sk (i + cfg.INDCPA_SECRETKEYBYTES) v
  let sk ← hash_h cfg sk (cfg.SECRETKEYBYTES - 64) pk 0 cfg.INDCPA_PUBLICKEYBYTES
  let (sk, st) ← random rb sk (cfg.SECRETKEYBYTES - KEYBYTES) KEYBYTES st
  pure (0, pk, sk, st)

/-- `crypto_kem_enc` (kem.c:29-51).  Returns the return code, `c`, `k` and the generator state. -/
def crypto_kem_enc {σ : Type} (cfg : Cfg) (rb : RandomBytes σ) (c k pk : List Byte) (st : σ) :
    LM (Int × List Byte × List Byte × σ) := do
  let kr := uninit 8 60 64
  let buf := uninit 8 61 64
  let (buf, st) ← random rb buf 0 32 st
  let buf ← hash_h cfg buf 0 buf 0 32
  let buf ← hash_h cfg buf 32 pk 0 cfg.INDCPA_PUBLICKEYBYTES
  let kr ← hash_g cfg kr 0 buf 0 64
  let c ← indcpa_kem_enc cfg buf 0 kr 32 pk 0 c
  let kr ← hash_h cfg kr 32 c 0 cfg.BYTES_CCA_DEC
  let k ← hash_h cfg k 0 kr 0 64
  pure (0, c, k, st)

/-- `crypto_kem_dec` (kem.c:53-80).  Returns the return code and `k`. -/
def crypto_kem_dec (cfg : Cfg) (k c sk : List Byte) : LM (Int × List Byte) := do
  let cmp := uninit 8 62 cfg.BYTES_CCA_DEC
  let buf := uninit 8 63 64
  let kr := uninit 8 64 64
  let buf ← indcpa_kem_dec cfg sk c buf
  let buf ← loop 32 buf fun i buf => do
    let v ← rd sk (cfg.SECRETKEYBYTES - 64 + i)
    wr buf (32 + i) v
  let kr ← hash_g cfg kr 0 buf 0 64
  let cmp ← indcpa_kem_enc cfg buf 0 kr 32 sk cfg.INDCPA_SECRETKEYBYTES cmp
  let fail ← verify c 0 cmp 0 cfg.BYTES_CCA_DEC
  let kr ← hash_h cfg kr 32 c 0 cfg.BYTES_CCA_DEC
  let kr ← cmov kr 0 sk (cfg.SECRETKEYBYTES - KEYBYTES) KEYBYTES (BitVec.ofInt 8 fail)
  let k ← hash_h cfg k 0 kr 0 64
  pure (0, k)

end Saber.Leak.U
