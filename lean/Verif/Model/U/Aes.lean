import Verif.CSem
/-!
# `Variants/uSaber-90s/ref/aes256ctr.c`

The local arrays `uint64_t q[8]` are only indexed with literals (or with a loop variable of a loop of fixed length, written out here), and
are modelled as a structure `Q` of eight words.  All other arrays are lists with checked accesses.
-/
namespace Saber.U.Aes

/-- The array `q[8]`. -/
structure Q (α : Type) where
  (q0 q1 q2 q3 q4 q5 q6 q7 : α)
deriving DecidableEq

/-- `br_dec32le` (aes256ctr.c:29-35). -/
def br_dec32le (src : List Byte) (off : Nat) : CM (BitVec 32) := do
  let s0 ← rd src (off + 0)
  let s1 ← rd src (off + 1)
  let s2 ← rd src (off + 2)
  let s3 ← rd src (off + 3)
  pure (s0.setWidth 32 ||| (s1.setWidth 32 <<< 8) ||| (s2.setWidth 32 <<< 16) ||| (s3.setWidth 32 <<< 24))

/-- `br_range_dec32le` (aes256ctr.c:37-43). -/
def br_range_dec32le (v : List (BitVec 32)) (num : Nat) (src : List Byte) (off : Nat) : CM (List (BitVec 32)) :=
  loop num v fun i v => do
    let x ← br_dec32le src (off + 4 * i)
    wr v i x

/-- `br_swap32` (aes256ctr.c:45-50). -/
def br_swap32 (x : BitVec 32) : BitVec 32 :=
  let x := ((x &&& 0x00FF00FF#32) <<< 8) ||| ((x >>> 8) &&& 0x00FF00FF#32)
  (x <<< 16) ||| (x >>> 16)

/-- `br_enc32le` (aes256ctr.c:52-58). -/
def br_enc32le (dst : List Byte) (off : Nat) (x : BitVec 32) : CM (List Byte) := do
  let dst ← wr dst (off + 0) (x.setWidth 8)
  let dst ← wr dst (off + 1) ((x >>> 8).setWidth 8)
  let dst ← wr dst (off + 2) ((x >>> 16).setWidth 8)
  let dst ← wr dst (off + 3) ((x >>> 24).setWidth 8)
  pure dst

/-- `br_range_enc32le` (aes256ctr.c:60-66). -/
def br_range_enc32le (dst : List Byte) (off : Nat) (v : List (BitVec 32)) (num : Nat) : CM (List Byte) :=
  loop num dst fun i dst => do
    let x ← rd v i
    br_enc32le dst (off + 4 * i) x

/-- `br_aes_ct64_bitslice_Sbox` (aes256ctr.c:68-241).  The code is the case `α := BitVec 64`; the proof also uses `α := Bool`. -/
def bitslice_Sbox {α : Type} [XorOp α] [AndOp α] [Complement α] (q : Q α) : Q α :=
  let x0 := q.q7
  let x1 := q.q6
  let x2 := q.q5
  let x3 := q.q4
  let x4 := q.q3
  let x5 := q.q2
  let x6 := q.q1
  let x7 := q.q0
  let y14 := x3 ^^^ x5
  let y13 := x0 ^^^ x6
  let y9 := x0 ^^^ x3
  let y8 := x0 ^^^ x5
  let t0 := x1 ^^^ x2
  let y1 := t0 ^^^ x7
  let y4 := y1 ^^^ x3
  let y12 := y13 ^^^ y14
  let y2 := y1 ^^^ x0
  let y5 := y1 ^^^ x6
  let y3 := y5 ^^^ y8
  let t1 := x4 ^^^ y12
  let y15 := t1 ^^^ x5
  let y20 := t1 ^^^ x1
  let y6 := y15 ^^^ x7
  let y10 := y15 ^^^ t0
  let y11 := y20 ^^^ y9
  let y7 := x7 ^^^ y11
  let y17 := y10 ^^^ y11
  let y19 := y10 ^^^ y8
  let y16 := t0 ^^^ y11
  let y21 := y13 ^^^ y16
  let y18 := x0 ^^^ y16
  let t2 := y12 &&& y15
  let t3 := y3 &&& y6
  let t4 := t3 ^^^ t2
  let t5 := y4 &&& x7
  let t6 := t5 ^^^ t2
  let t7 := y13 &&& y16
  let t8 := y5 &&& y1
  let t9 := t8 ^^^ t7
  let t10 := y2 &&& y7
  let t11 := t10 ^^^ t7
  let t12 := y9 &&& y11
  let t13 := y14 &&& y17
  let t14 := t13 ^^^ t12
  let t15 := y8 &&& y10
  let t16 := t15 ^^^ t12
  let t17 := t4 ^^^ t14
  let t18 := t6 ^^^ t16
  let t19 := t9 ^^^ t14
  let t20 := t11 ^^^ t16
  let t21 := t17 ^^^ y20
  let t22 := t18 ^^^ y19
  let t23 := t19 ^^^ y21
  let t24 := t20 ^^^ y18
  let t25 := t21 ^^^ t22
  let t26 := t21 &&& t23
  let t27 := t24 ^^^ t26
  let t28 := t25 &&& t27
  let t29 := t28 ^^^ t22
  let t30 := t23 ^^^ t24
  let t31 := t22 ^^^ t26
  let t32 := t31 &&& t30
  let t33 := t32 ^^^ t24
  let t34 := t23 ^^^ t33
  let t35 := t27 ^^^ t33
  let t36 := t24 &&& t35
  let t37 := t36 ^^^ t34
  let t38 := t27 ^^^ t36
  let t39 := t29 &&& t38
  let t40 := t25 ^^^ t39
  let t41 := t40 ^^^ t37
  let t42 := t29 ^^^ t33
  let t43 := t29 ^^^ t40
  let t44 := t33 ^^^ t37
  let t45 := t42 ^^^ t41
  let z0 := t44 &&& y15
  let z1 := t37 &&& y6
  let z2 := t33 &&& x7
  let z3 := t43 &&& y16
  let z4 := t40 &&& y1
  let z5 := t29 &&& y7
  let z6 := t42 &&& y11
  let z7 := t45 &&& y17
  let z8 := t41 &&& y10
  let z9 := t44 &&& y12
  let z10 := t37 &&& y3
  let z11 := t33 &&& y4
  let z12 := t43 &&& y13
  let z13 := t40 &&& y5
  let z14 := t29 &&& y2
  let z15 := t42 &&& y9
  let z16 := t45 &&& y14
  let z17 := t41 &&& y8
  let t46 := z15 ^^^ z16
  let t47 := z10 ^^^ z11
  let t48 := z5 ^^^ z13
  let t49 := z9 ^^^ z10
  let t50 := z2 ^^^ z12
  let t51 := z2 ^^^ z5
  let t52 := z7 ^^^ z8
  let t53 := z0 ^^^ z3
  let t54 := z6 ^^^ z7
  let t55 := z16 ^^^ z17
  let t56 := z12 ^^^ t48
  let t57 := t50 ^^^ t53
  let t58 := z4 ^^^ t46
  let t59 := z3 ^^^ t54
  let t60 := t46 ^^^ t57
  let t61 := z14 ^^^ t57
  let t62 := t52 ^^^ t58
  let t63 := t49 ^^^ t58
  let t64 := z4 ^^^ t59
  let t65 := t61 ^^^ t62
  let t66 := z1 ^^^ t63
  let s0 := t59 ^^^ t63
  let s6 := t56 ^^^ ~~~t62
  let s7 := t48 ^^^ ~~~t60
  let t67 := t64 ^^^ t65
  let s3 := t53 ^^^ t66
  let s4 := t51 ^^^ t66
  let s5 := t47 ^^^ t65
  let s1 := t64 ^^^ ~~~s3
  let s2 := t55 ^^^ ~~~t67
  ⟨s7, s6, s5, s4, s3, s2, s1, s0⟩

/-- The macro `SWAPN` (aes256ctr.c:245-251). -/
def SWAPN (cl ch : BitVec 64) (s : Nat) (x y : BitVec 64) : BitVec 64 × BitVec 64 :=
  let a := x
  let b := y
  let x := (a &&& cl) ||| ((b &&& cl) <<< s)
  let y := ((a &&& ch) >>> s) ||| (b &&& ch)
  (x, y)
/-- `SWAP2` (aes256ctr.c:253) -/
def SWAP2 := SWAPN 0x5555555555555555#64 0xAAAAAAAAAAAAAAAA#64 1
/-- `SWAP4` (aes256ctr.c:254) -/
def SWAP4 := SWAPN 0x3333333333333333#64 0xCCCCCCCCCCCCCCCC#64 2
/-- `SWAP8` (aes256ctr.c:255) -/
def SWAP8 := SWAPN 0x0F0F0F0F0F0F0F0F#64 0xF0F0F0F0F0F0F0F0#64 4

/-- `br_aes_ct64_ortho` (aes256ctr.c:243-271). -/
def ortho (q : Q (BitVec 64)) : Q (BitVec 64) :=
  let ⟨q0, q1, q2, q3, q4, q5, q6, q7⟩ := q
  let ⟨q0, q1⟩ := SWAP2 q0 q1
  let ⟨q2, q3⟩ := SWAP2 q2 q3
  let ⟨q4, q5⟩ := SWAP2 q4 q5
  let ⟨q6, q7⟩ := SWAP2 q6 q7
  let ⟨q0, q2⟩ := SWAP4 q0 q2
  let ⟨q1, q3⟩ := SWAP4 q1 q3
  let ⟨q4, q6⟩ := SWAP4 q4 q6
  let ⟨q5, q7⟩ := SWAP4 q5 q7
  let ⟨q0, q4⟩ := SWAP8 q0 q4
  let ⟨q1, q5⟩ := SWAP8 q1 q5
  let ⟨q2, q6⟩ := SWAP8 q2 q6
  let ⟨q3, q7⟩ := SWAP8 q3 q7
  ⟨q0, q1, q2, q3, q4, q5, q6, q7⟩

/-- `x |= (x << 16); x &= 0x0000FFFF0000FFFF; x |= (x << 8); x &= 0x00FF00FF00FF00FF` for one of `x0, ..., x3` (aes256ctr.c:281-296). -/
def spread (x : BitVec 64) : BitVec 64 :=
  let x := x ||| (x <<< 16)
  let x := x &&& 0x0000FFFF0000FFFF#64
  let x := x ||| (x <<< 8)
  x &&& 0x00FF00FF00FF00FF#64

/-- `br_aes_ct64_interleave_in` (aes256ctr.c:273-299): the values of `*q0` and `*q1`. -/
def interleave_in (w : List (BitVec 32)) (off : Nat) : CM (BitVec 64 × BitVec 64) := do
  let w0 ← rd w (off + 0)
  let w1 ← rd w (off + 1)
  let w2 ← rd w (off + 2)
  let w3 ← rd w (off + 3)
  let x0 := spread (w0.setWidth 64)
  let x1 := spread (w1.setWidth 64)
  let x2 := spread (w2.setWidth 64)
  let x3 := spread (w3.setWidth 64)
  pure (x0 ||| (x2 <<< 8), x1 ||| (x3 <<< 8))

/-- `x |= (x >> 8); x &= 0x0000FFFF0000FFFF; (uint32_t)x | (uint32_t)(x >> 16)` for one of `x0, ..., x3` (aes256ctr.c:309-320). -/
def gather (x : BitVec 64) : BitVec 32 :=
  let x := x ||| (x >>> 8)
  let x := x &&& 0x0000FFFF0000FFFF#64
  x.setWidth 32 ||| (x >>> 16).setWidth 32

/-- `br_aes_ct64_interleave_out` (aes256ctr.c:301-321). -/
def interleave_out (w : List (BitVec 32)) (off : Nat) (q0 q1 : BitVec 64) : CM (List (BitVec 32)) := do
  let x0 := q0 &&& 0x00FF00FF00FF00FF#64
  let x1 := q1 &&& 0x00FF00FF00FF00FF#64
  let x2 := (q0 >>> 8) &&& 0x00FF00FF00FF00FF#64
  let x3 := (q1 >>> 8) &&& 0x00FF00FF00FF00FF#64
  let w ← wr w (off + 0) (gather x0)
  let w ← wr w (off + 1) (gather x1)
  let w ← wr w (off + 2) (gather x2)
  let w ← wr w (off + 3) (gather x3)
  pure w

/-- `Rcon` (aes256ctr.c:323-325) -/
def Rcon : List Byte := [0x01, 0x02, 0x04, 0x08, 0x10, 0x20, 0x40, 0x80, 0x1B, 0x36]

/-- `sub_word` (aes256ctr.c:327-337). -/
def sub_word (x : BitVec 32) : BitVec 32 :=
  let q : Q (BitVec 64) := ⟨x.setWidth 64, 0, 0, 0, 0, 0, 0, 0⟩
  let q := ortho q
  let q := bitslice_Sbox q
  let q := ortho q
  q.q0.setWidth 32

/-- The local variables of the first loop of `br_aes_ct64_keysched`. -/
structure KS where
  skey : List (BitVec 32)
  tmp : BitVec 32
  j : Nat
  k : Nat

/-- The new value of `tmp` (aes256ctr.c:352-357); `nk > 6` is true. -/
def keyTmp (s : KS) : CM (BitVec 32) :=
  if s.j = 0 then do
    let tmp := (s.tmp <<< 24) ||| (s.tmp >>> 8)
    let rc ← rd Rcon s.k
    pure (sub_word tmp ^^^ rc.setWidth 32)
  else if s.j = 4 then
    pure (sub_word s.tmp)
  else
    pure s.tmp

/-- Body of the first loop of `br_aes_ct64_keysched` (aes256ctr.c:351-364); `nk` is 8, `i` counts from `nk`. -/
def keyStep (i : Nat) (s : KS) : CM KS := do
  let tmp ← keyTmp s
  let x ← rd s.skey (8 + i - 8)
  let tmp := tmp ^^^ x
  let skey ← wr s.skey (8 + i) tmp
  let j := s.j + 1
  if j = 8 then
    pure ⟨skey, tmp, 0, s.k + 1⟩
  else
    pure ⟨skey, tmp, j, s.k⟩

/-- Body of the second loop of `br_aes_ct64_keysched` (aes256ctr.c:366-387), iteration `i / 4`. -/
def keyComp (skey : List (BitVec 32)) (n : Nat) (comp : List (BitVec 64)) : CM (List (BitVec 64)) := do
  let ⟨a, b⟩ ← interleave_in skey (4 * n)
  let q := ortho ⟨a, a, a, a, b, b, b, b⟩
  let comp ← wr comp (2 * n + 0) ((q.q0 &&& 0x1111111111111111#64) ||| (q.q1 &&& 0x2222222222222222#64) |||
    (q.q2 &&& 0x4444444444444444#64) ||| (q.q3 &&& 0x8888888888888888#64))
  wr comp (2 * n + 1) ((q.q4 &&& 0x1111111111111111#64) ||| (q.q5 &&& 0x2222222222222222#64) |||
    (q.q6 &&& 0x4444444444444444#64) ||| (q.q7 &&& 0x8888888888888888#64))

/-- `br_aes_ct64_keysched` (aes256ctr.c:339-388). -/
def keysched (comp_skey : List (BitVec 64)) (key : List Byte) (keyOff : Nat) : CM (List (BitVec 64)) := do
  let skey ← br_range_dec32le (uninit 32 80 60) 8 key keyOff
  let tmp ← rd skey 7
  let s ← loop 52 ⟨skey, tmp, 0, 0⟩ keyStep
  loop 15 comp_skey (keyComp s.skey)

/-- Body of the loop of `br_aes_ct64_skey_expand` (aes256ctr.c:395-410). -/
def expandStep (comp_skey : List (BitVec 64)) (u : Nat) (skey : List (BitVec 64)) : CM (List (BitVec 64)) := do
  let x ← rd comp_skey u
  let x0 := x &&& 0x1111111111111111#64
  let x1 := x &&& 0x2222222222222222#64
  let x2 := x &&& 0x4444444444444444#64
  let x3 := x &&& 0x8888888888888888#64
  let x1 := x1 >>> 1
  let x2 := x2 >>> 2
  let x3 := x3 >>> 3
  let skey ← wr skey (4 * u + 0) ((x0 <<< 4) - x0)
  let skey ← wr skey (4 * u + 1) ((x1 <<< 4) - x1)
  let skey ← wr skey (4 * u + 2) ((x2 <<< 4) - x2)
  wr skey (4 * u + 3) ((x3 <<< 4) - x3)

/-- `br_aes_ct64_skey_expand` (aes256ctr.c:390-411). -/
def skey_expand (skey comp_skey : List (BitVec 64)) : CM (List (BitVec 64)) := loop 30 skey (expandStep comp_skey)

/-- `add_round_key` (aes256ctr.c:413-423). -/
def add_round_key (q : Q (BitVec 64)) (sk : List (BitVec 64)) (off : Nat) : CM (Q (BitVec 64)) := do
  let k0 ← rd sk (off + 0)
  let k1 ← rd sk (off + 1)
  let k2 ← rd sk (off + 2)
  let k3 ← rd sk (off + 3)
  let k4 ← rd sk (off + 4)
  let k5 ← rd sk (off + 5)
  let k6 ← rd sk (off + 6)
  let k7 ← rd sk (off + 7)
  pure ⟨q.q0 ^^^ k0, q.q1 ^^^ k1, q.q2 ^^^ k2, q.q3 ^^^ k3, q.q4 ^^^ k4, q.q5 ^^^ k5, q.q6 ^^^ k6, q.q7 ^^^ k7⟩

/-- Body of the loop of `shift_rows` (aes256ctr.c:429-440). -/
def shiftRows1 (x : BitVec 64) : BitVec 64 :=
  (x &&& 0x000000000000FFFF#64) ||| ((x &&& 0x00000000FFF00000#64) >>> 4) ||| ((x &&& 0x00000000000F0000#64) <<< 12) |||
    ((x &&& 0x0000FF0000000000#64) >>> 8) ||| ((x &&& 0x000000FF00000000#64) <<< 8) ||| ((x &&& 0xF000000000000000#64) >>> 12) |||
    ((x &&& 0x0FFF000000000000#64) <<< 4)

/-- `shift_rows` (aes256ctr.c:425-441). -/
def shift_rows (q : Q (BitVec 64)) : Q (BitVec 64) :=
  ⟨shiftRows1 q.q0, shiftRows1 q.q1, shiftRows1 q.q2, shiftRows1 q.q3, shiftRows1 q.q4, shiftRows1 q.q5, shiftRows1 q.q6, shiftRows1 q.q7⟩

/-- `rotr32` (aes256ctr.c:443-446). -/
def rotr32 (x : BitVec 64) : BitVec 64 := (x <<< 32) ||| (x >>> 32)

/-- `mix_columns` (aes256ctr.c:448-478). -/
def mix_columns (q : Q (BitVec 64)) : Q (BitVec 64) :=
  let ⟨q0, q1, q2, q3, q4, q5, q6, q7⟩ := q
  let r0 := (q0 >>> 16) ||| (q0 <<< 48)
  let r1 := (q1 >>> 16) ||| (q1 <<< 48)
  let r2 := (q2 >>> 16) ||| (q2 <<< 48)
  let r3 := (q3 >>> 16) ||| (q3 <<< 48)
  let r4 := (q4 >>> 16) ||| (q4 <<< 48)
  let r5 := (q5 >>> 16) ||| (q5 <<< 48)
  let r6 := (q6 >>> 16) ||| (q6 <<< 48)
  let r7 := (q7 >>> 16) ||| (q7 <<< 48)
  ⟨q7 ^^^ r7 ^^^ r0 ^^^ rotr32 (q0 ^^^ r0),
   q0 ^^^ r0 ^^^ q7 ^^^ r7 ^^^ r1 ^^^ rotr32 (q1 ^^^ r1),
   q1 ^^^ r1 ^^^ r2 ^^^ rotr32 (q2 ^^^ r2),
   q2 ^^^ r2 ^^^ q7 ^^^ r7 ^^^ r3 ^^^ rotr32 (q3 ^^^ r3),
   q3 ^^^ r3 ^^^ q7 ^^^ r7 ^^^ r4 ^^^ rotr32 (q4 ^^^ r4),
   q4 ^^^ r4 ^^^ r5 ^^^ rotr32 (q5 ^^^ r5),
   q5 ^^^ r5 ^^^ r6 ^^^ rotr32 (q6 ^^^ r6),
   q6 ^^^ r6 ^^^ r7 ^^^ rotr32 (q7 ^^^ r7)⟩

/-- `inc4_be` (aes256ctr.c:480-484). -/
def inc4_be (ivw : List (BitVec 32)) (i : Nat) : CM (List (BitVec 32)) := do
  let x ← rd ivw i
  let x := br_swap32 x + 4
  wr ivw i (br_swap32 x)

/-- Body of the loop over the rounds (aes256ctr.c:499-504), iteration `i + 1`. -/
def aesRound (sk_exp : List (BitVec 64)) (i : Nat) (q : Q (BitVec 64)) : CM (Q (BitVec 64)) :=
  let q := bitslice_Sbox q
  let q := shift_rows q
  let q := mix_columns q
  add_round_key q sk_exp ((i + 1) * 8)

/-- `aes_ctr4x` (aes256ctr.c:486-520): `out` points to `out[outOff]`; returns `out` and `ivw`. -/
def aes_ctr4x (out : List Byte) (outOff : Nat) (ivw : List (BitVec 32)) (sk_exp : List (BitVec 64)) :
    CM (List Byte × List (BitVec 32)) := do
  let w ← memcpy (uninit 32 81 16) 0 ivw 0 16
  let ⟨q0, q4⟩ ← interleave_in w 0
  let ⟨q1, q5⟩ ← interleave_in w 4
  let ⟨q2, q6⟩ ← interleave_in w 8
  let ⟨q3, q7⟩ ← interleave_in w 12
  let q := ortho ⟨q0, q1, q2, q3, q4, q5, q6, q7⟩
  let q ← add_round_key q sk_exp 0
  let q ← loop 13 q (aesRound sk_exp)
  let q := bitslice_Sbox q
  let q := shift_rows q
  let q ← add_round_key q sk_exp 112
  let q := ortho q
  let w ← interleave_out w 0 q.q0 q.q4
  let w ← interleave_out w 4 q.q1 q.q5
  let w ← interleave_out w 8 q.q2 q.q6
  let w ← interleave_out w 12 q.q3 q.q7
  let out ← br_range_enc32le out outOff w 16
  let ivw ← inc4_be ivw 3
  let ivw ← inc4_be ivw 7
  let ivw ← inc4_be ivw 11
  let ivw ← inc4_be ivw 15
  pure (out, ivw)

/-- `br_aes_ct64_ctr_init` (aes256ctr.c:522-528). -/
def ctr_init (sk_exp : List (BitVec 64)) (key : List Byte) (keyOff : Nat) : CM (List (BitVec 64)) := do
  let skey ← keysched (uninit 64 82 30) key keyOff
  skey_expand sk_exp skey

/-- The loop `while (len > 64)` and the rest of `br_aes_ct64_ctr_run` (aes256ctr.c:544-554). -/
def ctrLoop (sk_exp : List (BitVec 64)) (ivw : List (BitVec 32)) (data : List Byte) (off len : Nat) : CM (List Byte) :=
  if 64 < len then do
    let ⟨data, ivw⟩ ← aes_ctr4x data off ivw sk_exp
    ctrLoop sk_exp ivw data (off + 64) (len - 64)
  else if 0 < len then do
    let ⟨tmp, _⟩ ← aes_ctr4x (uninit 8 83 64) 0 ivw sk_exp
    loop len data fun i data => do
      let x ← rd tmp i
      wr data (off + i) x
  else
    pure data
termination_by len
decreasing_by omega

/-- The initialisation of `ivw` (aes256ctr.c:535-542 and 569-576). -/
def ivInit (ivw : List (BitVec 32)) (iv : List Byte) (ivOff : Nat) (cc : BitVec 32) : CM (List (BitVec 32)) := do
  let ivw ← br_range_dec32le ivw 3 iv ivOff
  let ivw ← memcpy ivw 4 ivw 0 3
  let ivw ← memcpy ivw 8 ivw 0 3
  let ivw ← memcpy ivw 12 ivw 0 3
  let ivw ← wr ivw 3 (br_swap32 cc)
  let ivw ← wr ivw 7 (br_swap32 (cc + 1))
  let ivw ← wr ivw 11 (br_swap32 (cc + 2))
  wr ivw 15 (br_swap32 (cc + 3))

/-- `br_aes_ct64_ctr_run` (aes256ctr.c:530-555). -/
def ctr_run (sk_exp : List (BitVec 64)) (iv : List Byte) (ivOff : Nat) (cc : BitVec 32) (data : List Byte) (off len : Nat) :
    CM (List Byte) := do
  let ivw ← ivInit (uninit 32 84 16) iv ivOff cc
  ctrLoop sk_exp ivw data off len

/-- `aes256ctr_prf` (aes256ctr.c:557-563). -/
def aes256ctr_prf (out : List Byte) (outOff outlen : Nat) (key : List Byte) (keyOff : Nat) (nonce : List Byte) (nonceOff : Nat) :
    CM (List Byte) := do
  let sk_exp ← ctr_init (uninit 64 85 120) key keyOff
  ctr_run sk_exp nonce nonceOff 0 out outOff outlen

/-- `aes256ctr_ctx` (aes256ctr.h:6-9). -/
structure Ctx where
  sk_exp : List (BitVec 64)
  ivw : List (BitVec 32)

/-- `aes256ctr_init` (aes256ctr.c:565-577). -/
def aes256ctr_init (s : Ctx) (key : List Byte) (keyOff : Nat) (nonce : List Byte) (nonceOff : Nat) : CM Ctx := do
  let sk_exp ← ctr_init s.sk_exp key keyOff
  let ivw ← ivInit s.ivw nonce nonceOff 0
  pure ⟨sk_exp, ivw⟩

/-- `aes256ctr_squeezeblocks` (aes256ctr.c:579-586). -/
def aes256ctr_squeezeblocks (out : List Byte) (outOff nblocks : Nat) (s : Ctx) : CM (List Byte × Ctx) :=
  loop nblocks (out, s) fun i ⟨out, s⟩ => do
    let ⟨out, ivw⟩ ← aes_ctr4x out (outOff + 64 * i) s.ivw s.sk_exp
    pure (out, ⟨s.sk_exp, ivw⟩)

end Saber.U.Aes
