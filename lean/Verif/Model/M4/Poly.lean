import Verif.Model.M4.Pack
import Verif.Model.M4.Cbd
import Verif.Model.M4.PolyMul
import Verif.Model.Poly
/-!
# `Cortex-M4/src/*/m4-striding/poly.c`

`lib` is the hash library, `toom` the multiplication routine, `cs` the option `SABER_COMPRESS_SECRETKEY`.
-/
namespace Saber.M4

/-- `h1` (poly.c:7) -/
def h1 : Int := 2 ^ (EQ - EP - 1)
/-- `h2` (poly.c:8) -/
def h2 (P : PSet) : Int := 2 ^ (EP - 2) - 2 ^ (EP - P.ET - 1) + 2 ^ (EQ - EP - 1)

variable (P : PSet) (lib : Fips202Lib) (toom : Toom) (cs : Bool)

/-- `shake128_absorb_seed` (poly.c:11-18) -/
def shake128_absorb_seed (seed : List Byte) (off : Nat) : CM lib.Ctx := do
  let ctx ← lib.inc_init
  let ctx ← lib.inc_absorb ctx seed off SEEDBYTES
  lib.inc_finalize ctx

/-- `shake128_squeeze_poly` (poly.c:21-27) -/
def shake128_squeeze_poly (poly : List (BitVec 16)) (ctx : lib.Ctx) : CM (List (BitVec 16) × lib.Ctx) := do
  let (shake_out, ctx) ← lib.inc_squeeze (uninit 8 130 POLYBYTES) 0 POLYBYTES ctx
  let poly ← BS2POLq shake_out 0 poly
  pure (poly, ctx)

/-- `shake128_squeeze_secret` (poly.c:30-36) -/
def shake128_squeeze_secret (s : List (BitVec 16)) (ctx : lib.Ctx) : CM (List (BitVec 16) × lib.Ctx) := do
  let (shake_out, ctx) ← lib.inc_squeeze (uninit 8 131 P.POLYCOINBYTES) 0 P.POLYCOINBYTES ctx
  let s ← cbd P s shake_out 0
  pure (s, ctx)

/-- `GenSecret` (poly.c:38-52); `seed_s` points to `seed[off]`.  Returns `s` and the object of `seed_s`, which is overwritten if
`keypair` is set (all calls in this code pass 0). -/
def GenSecret (s : List (List (BitVec 16))) (seed : List Byte) (off : Nat) (keypair : Int) :
    CM (List (List (BitVec 16)) × List Byte) := do
  let shake_out ← lib.shake128 (uninit 8 132 (P.L * P.POLYCOINBYTES)) 0 (P.L * P.POLYCOINBYTES) seed off NOISE_SEEDBYTES
  let s ← loop P.L s fun i s => do
    let si ← rd s i
    let si ← cbd P si shake_out (i * P.POLYCOINBYTES)
    wr s i si
  if keypair ≠ 0 then do
    let seed ← POLVECmu2BS P cs seed off s
    pure (s, seed)
  else pure (s, seed)

/-- `if (first) poly_mul(s, A, r) else poly_mul_acc(s, A, r)` (poly.c:77-81, 123-127, 164-168, 201-205). -/
def mulAcc (first : Bool) (s A r : List (BitVec 16)) : CM (List (BitVec 16) × List (BitVec 16)) :=
  if first then poly_mul toom s A r else poly_mul_acc toom s A r

/-- The variables of the loops of `MatrixVectorMulKeyPair`. -/
structure KP (Ctx : Type) where
  sk : List Byte
  A : List (BitVec 16)
  s : List (BitVec 16)
  b : List (List (BitVec 16))
  cA : Ctx
  cS : Ctx

/-- Body of the inner loop (poly.c:73-82). -/
def kpInner (i j : Nat) (st : KP lib.Ctx) : CM (KP lib.Ctx) := do
  let (A, cA) ← shake128_squeeze_poly lib st.A st.cA
  let bj ← rd st.b j
  let (A, bj) ← mulAcc toom (i == 0) st.s A bj
  let b ← wr st.b j bj
  pure { st with A := A, b := b, cA := cA }

/-- Body of the outer loop (poly.c:68-83). -/
def kpOuter (i : Nat) (st : KP lib.Ctx) : CM (KP lib.Ctx) := do
  let (s, cS) ← shake128_squeeze_secret P lib st.s st.cS
  let sk ← POLmu2BS cs st.sk (i * POLYSECRETBYTES cs) s
  loop P.L { st with s := s, cS := cS, sk := sk } (kpInner lib toom i)

/-- The rounding loop (poly.c:91-93, 130-132). -/
def roundPoly (b : List (BitVec 16)) : CM (List (BitVec 16)) :=
  loop N b fun j b => do
    let x ← rd b j
    wr b j (u16 (isar (← iadd (prom x) h1) (EQ - EP)))

/-- `MatrixVectorMulKeyPair` (poly.c:55-98).  `seed_A` is `pk[POLYVECCOMPRESSEDBYTES..]`, `seed_s` the start of `sk`; both are absorbed
before `sk` and `pk` are written. -/
def MatrixVectorMulKeyPair (pk sk : List Byte) : CM (List Byte × List Byte) := do
  let cA ← shake128_absorb_seed lib pk P.POLYVECCOMPRESSEDBYTES
  let cS ← shake128_absorb_seed lib sk 0
  let st ← loop P.L (⟨sk, uninit 16 133 N, uninit 16 134 N, uninitVec 135 P.L, cA, cS⟩ : KP lib.Ctx) (kpOuter P lib toom cs)
  let (pk, _) ← loop P.L (pk, st.b) fun i (pk, b) => do
    let bi ← rd b i
    let bi ← roundPoly bi
    let b ← wr b i bi
    let pk ← POLp2BS pk (i * POLYCOMPRESSEDBYTES) bi
    pure (pk, b)
  pure (pk, st.sk)

/-- The variables of the inner loop of `MatrixVectorMulEnc`. -/
structure ME (Ctx : Type) where
  A : List (BitVec 16)
  bp : List (BitVec 16)
  cA : Ctx

/-- The inner loop of `MatrixVectorMulEnc` (poly.c:119-128). -/
def meInner (sp : List (List (BitVec 16))) (st : ME lib.Ctx) : CM (ME lib.Ctx) :=
  loop P.L st fun j st => do
    let (A, cA) ← shake128_squeeze_poly lib st.A st.cA
    let spj ← rd sp j
    let (A, bp) ← mulAcc toom (j == 0) spj A st.bp
    pure ⟨A, bp, cA⟩

/-- `MatrixVectorMulEnc` with `compare == 0` (poly.c:108-143); `ct0` is `ct[ctOff..]`, `seed_A` is `seed[off..]`.  Returns the new `ct`.
The return value is 0. -/
def MatrixVectorMulEnc (ct : List Byte) (ctOff : Nat) (seed : List Byte) (off : Nat) (sp : List (List (BitVec 16))) : CM (List Byte) := do
  let cA ← shake128_absorb_seed lib seed off
  let (_, ct) ← loop P.L ((⟨uninit 16 136 N, uninit 16 137 N, cA⟩ : ME lib.Ctx), ct) fun i (st, ct) => do
    let st ← meInner P lib toom sp st
    let bp ← roundPoly st.bp
    let ct ← POLp2BS ct (ctOff + i * POLYCOMPRESSEDBYTES) bp
    pure ({ st with bp := bp }, ct)
  pure ct

/-- `MatrixVectorMulEnc` with `compare != 0` (poly.c:108-143).  Returns `fail`; `ct` is not written. -/
def MatrixVectorMulEnc_cmp (ct : List Byte) (ctOff : Nat) (seed : List Byte) (off : Nat) (sp : List (List (BitVec 16))) :
    CM (BitVec 32) := do
  let cA ← shake128_absorb_seed lib seed off
  let (_, fail) ← loop P.L ((⟨uninit 16 136 N, uninit 16 137 N, cA⟩ : ME lib.Ctx), (0 : BitVec 32)) fun i (st, fail) => do
    let st ← meInner P lib toom sp st
    let bp ← roundPoly st.bp
    let f ← POLp2BS_cmp ct (ctOff + i * POLYCOMPRESSEDBYTES) bp
    pure ({ st with bp := bp }, fail ||| f)
  pure fail

/-- The computation of `vp` in `InnerProdEnc` (poly.c:154-175); `pk` is `pk[pkOff..]`, `m` is `m[mOff..]`. -/
def innerProdEncV (pk : List Byte) (pkOff : Nat) (sp : List (List (BitVec 16))) (m : List Byte) (mOff : Nat) : CM (List (BitVec 16)) := do
  let (b, vp) ← loop P.L (uninit 16 138 N, uninit 16 139 N) fun j (b, vp) => do
    let b ← BS2POLp pk (pkOff + j * POLYCOMPRESSEDBYTES) b
    let spj ← rd sp j
    mulAcc toom (j == 0) spj b vp
  let mp ← BS2POLmsg m mOff b
  loop N vp fun j vp => do
    let v ← rd vp j
    let mj ← rd mp j
    wr vp j (u16 (isar (← iadd (← isub (prom v) (← ishl (prom mj) (EP - 1))) h1) (EP - P.ET)))

/-- `InnerProdEnc` with `compare == 0` (poly.c:152-184).  Returns the new `ct`.  The return value is 0. -/
def InnerProdEnc (ct : List Byte) (ctOff : Nat) (pk : List Byte) (pkOff : Nat) (sp : List (List (BitVec 16))) (m : List Byte) (mOff : Nat) :
    CM (List Byte) := do
  let vp ← innerProdEncV P toom pk pkOff sp m mOff
  POLT2BS P ct ctOff vp

/-- `InnerProdEnc` with `compare != 0` (poly.c:152-184).  Returns `fail`. -/
def InnerProdEnc_cmp (ct : List Byte) (ctOff : Nat) (pk : List Byte) (pkOff : Nat) (sp : List (List (BitVec 16))) (m : List Byte)
    (mOff : Nat) : CM (BitVec 32) := do
  let vp ← innerProdEncV P toom pk pkOff sp m mOff
  let f ← POLT2BS_cmp P ct ctOff vp
  pure ((0 : BitVec 32) ||| f)

/-- The variables of the loop of `InnerProdDec`. -/
structure ID where
  v : List (BitVec 16)
  s : List (BitVec 16)
  bp : List (BitVec 16)

/-- `InnerProdDec` (poly.c:187-215).  Returns the new `m`. -/
def InnerProdDec (m ct sk : List Byte) : CM (List Byte) := do
  let st ← loop P.L (⟨uninit 16 140 N, uninit 16 141 N, uninit 16 142 N⟩ : ID) fun i st => do
    let s ← BS2POLmu cs sk (i * POLYSECRETBYTES cs) st.s
    let bp ← BS2POLp ct (i * POLYCOMPRESSEDBYTES) st.bp
    let (bp, v) ← mulAcc toom (i == 0) s bp st.v
    pure ⟨v, s, bp⟩
  let cm ← BS2POLT P ct P.POLYVECCOMPRESSEDBYTES st.bp
  let v ← loop N st.v fun i v => do
    let x ← rd v i
    let c ← rd cm i
    wr v i (u16 (isar (← isub (← iadd (prom x) (h2 P)) (← ishl (prom c) (EP - P.ET))) (EP - 1)))
  POLmsg2BS m 0 v

end Saber.M4
