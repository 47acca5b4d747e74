import Verif.CSem
/-!
# `Reference_Implementation_KEM/verify.c`
-/
namespace Saber

/-- `verify` (verify.c:13-24); `a`, `b` point to `a[aOff]`, `b[bOff]`.  `a[i] ^ b[i]` is a non-negative `int`; the final `uint64_t`
is 0 or 1, so its conversion to `int` keeps the value. -/
def verify (a : List Byte) (aOff : Nat) (b : List Byte) (bOff len : Nat) : CM Int := do
  let r ← loop len (0 : BitVec 64) fun i r => do
    let x ← rd a (aOff + i)
    let y ← rd b (bOff + i)
    pure (r ||| (x ^^^ y).setWidth 64)
  let r := (-r) >>> 63
  pure (r.toNat : Int)

/-- `cmov` (verify.c:27-34); `r`, `x` point to `r[rOff]`, `x[xOff]`.  `b = -b` is the negation of the promoted value, converted back
to `unsigned char`. -/
def cmov (r : List Byte) (rOff : Nat) (x : List Byte) (xOff len : Nat) (b : Byte) : CM (List Byte) :=
  let b := BitVec.ofInt 8 (-(prom b))
  loop len r fun i r => do
    let xi ← rd x (xOff + i)
    let ri ← rd r (rOff + i)
    wr r (rOff + i) (ri ^^^ (b &&& (xi ^^^ ri)))

end Saber
