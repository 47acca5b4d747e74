import Verif.Spec.Saber
/-!
# Specification: the Cortex-M4 implementation

With the option `SABER_COMPRESS_SECRETKEY` the secret key holds the coefficients of the secret vector as 4-bit two's complement integers
instead of 13-bit integers.
-/
namespace Saber.Spec

/-- The integer in `[-8, 8)` with the 4-bit two's complement representation `x`. -/
def signed4 (x : Int) : Int := if x < 8 then x else x - 16

/-- Vector of polynomials read from a string of signed 4-bit coefficients. -/
def unpackVecS4 (L : Nat) (bs : List Byte) : PVec L := fun i k => signed4 (unpackVec 4 L bs i k)

/-- Secret key of Saber.PKE.KeyGen with 4 bits per coefficient. -/
def pkeKeyGenSkC (P : Params) (seedS : List Byte) : List Byte := packVec 4 (genSecret P seedS)

/-- Secret key of Saber.KEM.KeyGen with compressed secret: `sk_cpa || pk || SHA3-256(pk) || z`. -/
def kemSkC (P : Params) (seedA0 seedS z : List Byte) : List Byte :=
  pkeKeyGenSkC P seedS ++ kemPk P seedA0 seedS ++ Keccak.sha3_256 (kemPk P seedA0 seedS) ++ z

/-- The secret key in the 13-bit format that corresponds to a secret key with compressed secret. -/
def expandSk (P : Params) (sk : List Byte) : List Byte := packVec 13 (unpackVecS4 P.l sk) ++ sk.drop (P.l * 128)

end Saber.Spec
