import Verif.Spec.Ring
import Verif.Spec.Cbd
import Verif.Spec.Keccak
/-!
# Specification: Saber (round 3)

Saber.PKE and Saber.KEM, written over integer polynomials.  `q = 2^13`, `p = 2^10`, `T = 2^eT`; a value modulo `2^k` is
represented by an integer, and only `pack`, which keeps the low bits, and the explicit `% ...` reduce it.
-/
namespace Saber.Spec

/-- The parameters that differ between LightSaber, Saber and FireSaber. -/
structure Params where
  /-- rank of the module -/
  l : Nat
  /-- parameter of the binomial distribution -/
  mu : Nat
  /-- `T = 2^eT` -/
  eT : Nat

/-- LightSaber -/
def lightSaber : Params := ⟨2, 10, 3⟩
/-- Saber -/
def saber : Params := ⟨3, 8, 4⟩
/-- FireSaber -/
def fireSaber : Params := ⟨4, 6, 6⟩

/-- Vectors of polynomials. -/
abbrev PVec (l : Nat) := Fin l → Poly
/-- Matrices of polynomials. -/
abbrev PMat (l : Nat) := Fin l → Fin l → Poly

/-- `A * s` -/
def matVec {l : Nat} (A : PMat l) (s : PVec l) : PVec l := fun i k => ∑ j, negMul (A i j) (s j) k
/-- `<b, s>` -/
def innerProd {l : Nat} (b s : PVec l) : Poly := fun k => ∑ j, negMul (b j) (s j) k
/-- Transpose of a matrix. -/
def transpose {l : Nat} (A : PMat l) : PMat l := fun i j => A j i

/-- `h1 = 2^(eq - ep - 1)` -/
def h1 : Int := 4
/-- `h2 = 2^(ep - 2) - 2^(ep - eT - 1) + 2^(eq - ep - 1)` -/
def h2 (eT : Nat) : Int := 256 - 2 ^ (10 - eT - 1) + 4

/-- Scaling from `q` to `p` with rounding: `((x + h1) mod q) >> (eq - ep)`. -/
def roundP (x : Poly) : Poly := fun k => (x k + h1) % 8192 / 8

variable [Keccak.Permutation]

/-- `gen`: the public matrix.  The coefficients are consecutive 13-bit integers of the SHAKE128 stream, row by row. -/
def genMatrix (P : Params) (seed : List Byte) : PMat P.l :=
  let buf := Keccak.shake128 seed (P.l * P.l * 416)
  fun i j => unpack 13 (buf.drop ((i.val * P.l + j.val) * 416))

/-- The secret vector: consecutive `mu`-bit pieces of the SHAKE128 stream. -/
def genSecret (P : Params) (seed : List Byte) : PVec P.l :=
  let buf := Keccak.shake128 seed (P.l * P.mu * 32)
  fun i => centredBinomial P.mu (buf.drop (i.val * P.mu * 32))

/-! ### Saber.PKE -/

/-- Public vector `b = ((A^T s + h) mod q) >> (eq - ep)`. -/
def pubVec (P : Params) (seedA seedS : List Byte) : PVec P.l := fun i =>
  roundP (matVec (transpose (genMatrix P seedA)) (genSecret P seedS) i)

/-- Public key of Saber.PKE.KeyGen. -/
def pkeKeyGenPk (P : Params) (seedA seedS : List Byte) : List Byte := packVec 10 (pubVec P seedA seedS) ++ seedA

/-- Secret key of Saber.PKE.KeyGen. -/
def pkeKeyGenSk (P : Params) (seedS : List Byte) : List Byte := packVec 13 (genSecret P seedS)

/-- `c_m = ((v' + h1 - 2^(ep-1) m) mod p) >> (ep - eT)` -/
def encodeMsg (eT : Nat) (v : Poly) (m : Poly) : Poly := fun k => (v k + h1 - 512 * m k) % 1024 / 2 ^ (10 - eT)

/-- Saber.PKE.Enc with message `m`, coins `seedS` and public key `pk`. -/
def pkeEnc (P : Params) (m seedS pk : List Byte) : List Byte :=
  let A := genMatrix P (pk.drop (P.l * 320))
  let s' := genSecret P seedS
  let b' : PVec P.l := fun i => roundP (matVec A s' i)
  let b := unpackVec 10 P.l pk
  packVec 10 b' ++ pack P.eT (encodeMsg P.eT (innerProd b s') (unpack 1 m))

/-- `m' = ((v - 2^(ep-eT) c_m + h2) mod p) >> (ep - 1)` -/
def decodeMsg (eT : Nat) (v cm : Poly) : Poly := fun k => (v k - 2 ^ (10 - eT) * cm k + h2 eT) % 1024 / 512

/-- Saber.PKE.Dec. -/
def pkeDec (P : Params) (sk c : List Byte) : List Byte :=
  let s := unpackVec 13 P.l sk
  let b' := unpackVec 10 P.l c
  let cm := unpack P.eT (c.drop (P.l * 320))
  pack 1 (decodeMsg P.eT (innerProd b' s) cm)

/-! ### Saber.KEM -/

/-- Public key of Saber.KEM.KeyGen from the random string `seedA0` (hashed before use) and `seedS`. -/
def kemPk (P : Params) (seedA0 seedS : List Byte) : List Byte := pkeKeyGenPk P (Keccak.shake128 seedA0 32) seedS

/-- Secret key of Saber.KEM.KeyGen: `sk_cpa || pk || SHA3-256(pk) || z`. -/
def kemSk (P : Params) (seedA0 seedS z : List Byte) : List Byte :=
  pkeKeyGenSk P seedS ++ kemPk P seedA0 seedS ++ Keccak.sha3_256 (kemPk P seedA0 seedS) ++ z

/-- `(K^, r) = SHA3-512(m || hpk)` -/
def kemKr (m hpk : List Byte) : List Byte := Keccak.sha3_512 (m ++ hpk)

/-- Final key derivation `SHA3-256(K^ || SHA3-256(c))`. -/
def kemKey (kHat c : List Byte) : List Byte := Keccak.sha3_256 (kHat ++ Keccak.sha3_256 c)

/-- Ciphertext of Saber.KEM.Encaps from the random string `m0` (hashed before use). -/
def encapsC (P : Params) (m0 pk : List Byte) : List Byte :=
  let m := Keccak.sha3_256 m0
  pkeEnc P m ((kemKr m (Keccak.sha3_256 pk)).drop 32) pk

/-- Shared secret of Saber.KEM.Encaps. -/
def encapsK (P : Params) (m0 pk : List Byte) : List Byte :=
  let m := Keccak.sha3_256 m0
  kemKey ((kemKr m (Keccak.sha3_256 pk)).take 32) (encapsC P m0 pk)

/-- The components of a KEM secret key. -/
def skCpa (P : Params) (sk : List Byte) : List Byte := sk.take (P.l * 416)
/-- The public key stored in a KEM secret key. -/
def skPk (P : Params) (sk : List Byte) : List Byte := (sk.drop (P.l * 416)).take (P.l * 320 + 32)
/-- The hash of the public key stored in a KEM secret key. -/
def skHpk (P : Params) (sk : List Byte) : List Byte := (sk.drop (P.l * 416 + (P.l * 320 + 32))).take 32
/-- The rejection secret stored in a KEM secret key. -/
def skZ (P : Params) (sk : List Byte) : List Byte := (sk.drop (P.l * 416 + (P.l * 320 + 32) + 32)).take 32

/-- Message and re-encryption of Saber.KEM.Decaps. -/
def decapsM (P : Params) (sk c : List Byte) : List Byte := pkeDec P (skCpa P sk) c
/-- `(K^', r')` -/
def decapsKr (P : Params) (sk c : List Byte) : List Byte := kemKr (decapsM P sk c) (skHpk P sk)
/-- The ciphertext obtained by re-encryption. -/
def reEncrypt (P : Params) (sk c : List Byte) : List Byte :=
  pkeEnc P (decapsM P sk c) ((decapsKr P sk c).drop 32) (skPk P sk)

/-- Saber.KEM.Decaps. -/
def decaps (P : Params) (sk c : List Byte) : List Byte :=
  if c = reEncrypt P sk c then kemKey ((decapsKr P sk c).take 32) c else kemKey (skZ P sk) c

end Saber.Spec
