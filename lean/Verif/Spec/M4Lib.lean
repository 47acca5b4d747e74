import Verif.Model.M4.PolyMul
import Verif.Model.M4.Base
import Verif.Spec.Keccak
import Verif.Spec.Arrays
import Verif.Spec.Ring
/-!
# What the Cortex-M4 implementation expects of the hash library and of the multiplication routines

`fips202.h` of pqm4 is not part of the repository.  The theorems about the Cortex-M4 implementation hold for every library with this
behaviour.
-/
namespace Saber.M4
open Spec

/-- The library computes SHAKE128, SHA3-256 and SHA3-512, and its incremental SHAKE128 delivers the output of SHAKE128 piece by piece.
`St M n ctx` says that `ctx` holds the message `M` and that `n` bytes of output have been delivered. -/
structure Fips202Lib.CorrectWith (lib : Fips202Lib) (St : List Byte → Nat → lib.Ctx → Prop) : Prop where
  shake128 : ∀ out outOff outlen inp inOff inlen, outOff + outlen ≤ out.length → inOff + inlen ≤ inp.length →
    lib.shake128 out outOff outlen inp inOff inlen = .ok (writeAt out outOff (Keccak.shake128 ((inp.drop inOff).take inlen) outlen))
  sha3_256 : ∀ out outOff inp inOff inlen, outOff + 32 ≤ out.length → inOff + inlen ≤ inp.length →
    lib.sha3_256 out outOff inp inOff inlen = .ok (writeAt out outOff (Keccak.sha3_256 ((inp.drop inOff).take inlen)))
  sha3_512 : ∀ out outOff inp inOff inlen, outOff + 64 ≤ out.length → inOff + inlen ≤ inp.length →
    lib.sha3_512 out outOff inp inOff inlen = .ok (writeAt out outOff (Keccak.sha3_512 ((inp.drop inOff).take inlen)))
  absorb : ∀ inp inOff inlen, inOff + inlen ≤ inp.length → ∃ c1 c2 c3, lib.inc_init = .ok c1 ∧
    lib.inc_absorb c1 inp inOff inlen = .ok c2 ∧ lib.inc_finalize c2 = .ok c3 ∧ St ((inp.drop inOff).take inlen) 0 c3
  squeeze : ∀ M n c out outOff outlen, St M n c → outOff + outlen ≤ out.length → ∃ c', St M (n + outlen) c' ∧
    lib.inc_squeeze out outOff outlen c = .ok (writeAt out outOff ((Keccak.shake128 M (n + outlen)).drop n), c')

/-- The library is correct for some representation of the incremental state. -/
def Fips202Lib.Correct (lib : Fips202Lib) : Prop := ∃ St, lib.CorrectWith St

/-- A multiplication routine adds the product of `a` and `b` in `Z[X]/(X^256+1)` to `res`, modulo `2^13`, for all arrays of 256
coefficients.  It may overwrite `b`. -/
def Toom.Correct (toom : Toom) : Prop := ∀ a b res : List (BitVec 16), a.length = 256 → b.length = 256 → res.length = 256 →
  ∃ b' res', toom a b res = .ok (b', res') ∧ b'.length = 256 ∧ res'.length = 256 ∧
    EqMod 8192 (toP res') fun k => toP res k + negMul (toP a) (toP b) k

/-- Coefficient `k` of the product of `a` and `b` in `Z[Y]/(Y^64+1)`. -/
def negMul64 (a b : Nat → Int) (k : Nat) : Int :=
  ∑ i ∈ Finset.range 64, if i ≤ k then a i * b (k - i) else -(a i * b (64 + k - i))

/-- The integers stored in an array. -/
def vals (a : List (BitVec 16)) (i : Nat) : Int := (a.getD i 0).toNat

/-- The assembly routine stores the product in `Z[Y]/(Y^64+1)` of the arrays `a` and `b` in `res`, modulo `2^16`.  It may overwrite the
other arrays. -/
def Kara.Correct (kara : Kara) : Prop := ∀ k : K4, k.a.length = 64 → k.b.length = 64 → k.res.length = 64 → k.tmp.length = 64 →
  ∃ r, kara k = .ok r ∧ r.a.length = 64 ∧ r.b.length = 64 ∧ r.res.length = 64 ∧ r.tmp.length = 64 ∧
    ∀ i, i < 64 → vals r.res i = negMul64 (vals k.a) (vals k.b) i % 65536

end Saber.M4
