import Verif.Spec.Saber
import Verif.Spec.Sha2
import Verif.Spec.Aes
/-!
# Specification: uSaber and Saber-90s

The Saber submission describes two independent variations of Saber.  uSaber draws the secret coefficients uniformly from
`{-2, -1, 0, 1}` instead of a binomial distribution and uses `q = 2^12` instead of `2^13`.  Saber-90s replaces SHAKE128, SHA3-256 and
SHA3-512 by AES-256 in counter mode, SHA-256 and SHA-512.  The scheme is otherwise the one of `Spec/Saber.lean`; it is written here
with the modulus, the sampler and the symmetric functions as parameters.
-/
namespace Saber.USpec
open Saber.Spec (Poly PVec PMat matVec innerProd transpose unpack unpackVec pack packVec centredBinomial)

/-- The symmetric functions: an expander `prf key length` and two hash functions. -/
structure Sym where
  /-- expansion of a 32-byte seed to a byte string of a given length -/
  prf : List Byte → Nat → List Byte
  /-- hash function with 32 bytes of output -/
  H : List Byte → List Byte
  /-- hash function with 64 bytes of output -/
  G : List Byte → List Byte

/-- The functions of Saber: SHAKE128, SHA3-256 and SHA3-512. -/
def fips202 : Sym := ⟨Spec.Keccak.shake128, Spec.Keccak.sha3_256, Spec.Keccak.sha3_512⟩
/-- The functions of Saber-90s: AES-256 in counter mode with the seed as key and nonce zero, SHA-256 and SHA-512. -/
def s90 : Sym := ⟨fun key n => Spec.Aes.ctr key (List.replicate 12 0) n, Spec.Sha2.sha256, Spec.Sha2.sha512⟩

/-- The parameters of a variant. -/
structure Params where
  /-- rank of the module -/
  l : Nat
  /-- parameter of the binomial distribution (not used if `uniform`) -/
  mu : Nat
  /-- `T = 2^eT` -/
  eT : Nat
  /-- uSaber: uniform secrets and `q = 2^12` -/
  uniform : Bool
  /-- symmetric functions -/
  sym : Sym

/-- `q = 2^eq` -/
def Params.eq (P : Params) : Nat := if P.uniform then 12 else 13
/-- Number of random bits per secret coefficient. -/
def Params.coinBits (P : Params) : Nat := if P.uniform then 2 else P.mu

/-- Uniform sample from `{-2, -1, 0, 1}`: consecutive pieces of two bits, read as two's complement numbers. -/
def uniform2 (bs : List Byte) : Poly := fun k => if unpack 2 bs k < 2 then unpack 2 bs k else unpack 2 bs k - 4

/-- One secret polynomial from its random bits. -/
def sample (P : Params) (bs : List Byte) : Poly := if P.uniform then uniform2 bs else centredBinomial P.mu bs

/-- `h1 = 2^(eq - ep - 1)` -/
def h1 (eq : Nat) : Int := 2 ^ (eq - 10 - 1)
/-- `h2 = 2^(ep - 2) - 2^(ep - eT - 1) + 2^(eq - ep - 1)` -/
def h2 (eq eT : Nat) : Int := 256 - 2 ^ (10 - eT - 1) + 2 ^ (eq - 10 - 1)

/-- Scaling from `q` to `p` with rounding: `((x + h1) mod q) >> (eq - ep)`. -/
def roundP (eq : Nat) (x : Poly) : Poly := fun k => (x k + h1 eq) % 2 ^ eq / 2 ^ (eq - 10)

/-- `gen`: the public matrix.  The coefficients are consecutive `eq`-bit integers of the expander's output, row by row. -/
def genMatrix (P : Params) (seed : List Byte) : PMat P.l :=
  let buf := P.sym.prf seed (P.l * P.l * (32 * P.eq))
  fun i j => unpack P.eq (buf.drop ((i.val * P.l + j.val) * (32 * P.eq)))

/-- The secret vector: consecutive pieces of the expander's output. -/
def genSecret (P : Params) (seed : List Byte) : PVec P.l :=
  let buf := P.sym.prf seed (P.l * P.coinBits * 32)
  fun i => sample P (buf.drop (i.val * P.coinBits * 32))

/-! ### PKE -/

/-- Public vector `b = ((A^T s + h) mod q) >> (eq - ep)`. -/
def pubVec (P : Params) (seedA seedS : List Byte) : PVec P.l := fun i =>
  roundP P.eq (matVec (transpose (genMatrix P seedA)) (genSecret P seedS) i)

/-- Public key of PKE.KeyGen. -/
def pkeKeyGenPk (P : Params) (seedA seedS : List Byte) : List Byte := packVec 10 (pubVec P seedA seedS) ++ seedA

/-- Secret key of PKE.KeyGen. -/
def pkeKeyGenSk (P : Params) (seedS : List Byte) : List Byte := packVec P.eq (genSecret P seedS)

/-- `c_m = ((v' + h1 - 2^(ep-1) m) mod p) >> (ep - eT)` -/
def encodeMsg (eq eT : Nat) (v : Poly) (m : Poly) : Poly := fun k => (v k + h1 eq - 512 * m k) % 1024 / 2 ^ (10 - eT)

/-- PKE.Enc with message `m`, coins `seedS` and public key `pk`. -/
def pkeEnc (P : Params) (m seedS pk : List Byte) : List Byte :=
  let A := genMatrix P (pk.drop (P.l * 320))
  let s' := genSecret P seedS
  let b' : PVec P.l := fun i => roundP P.eq (matVec A s' i)
  let b := unpackVec 10 P.l pk
  packVec 10 b' ++ pack P.eT (encodeMsg P.eq P.eT (innerProd b s') (unpack 1 m))

/-- `m' = ((v - 2^(ep-eT) c_m + h2) mod p) >> (ep - 1)` -/
def decodeMsg (eq eT : Nat) (v cm : Poly) : Poly := fun k => (v k - 2 ^ (10 - eT) * cm k + h2 eq eT) % 1024 / 512

/-- PKE.Dec. -/
def pkeDec (P : Params) (sk c : List Byte) : List Byte :=
  let s := unpackVec P.eq P.l sk
  let b' := unpackVec 10 P.l c
  let cm := unpack P.eT (c.drop (P.l * 320))
  pack 1 (decodeMsg P.eq P.eT (innerProd b' s) cm)

/-! ### KEM -/

/-- Public key of KEM.KeyGen from the random string `seedA0` (expanded before use) and `seedS`. -/
def kemPk (P : Params) (seedA0 seedS : List Byte) : List Byte := pkeKeyGenPk P (P.sym.prf seedA0 32) seedS

/-- Secret key of KEM.KeyGen: `sk_cpa || pk || H(pk) || z`. -/
def kemSk (P : Params) (seedA0 seedS z : List Byte) : List Byte :=
  pkeKeyGenSk P seedS ++ kemPk P seedA0 seedS ++ P.sym.H (kemPk P seedA0 seedS) ++ z

/-- `(K^, r) = G(m || hpk)` -/
def kemKr (P : Params) (m hpk : List Byte) : List Byte := P.sym.G (m ++ hpk)

/-- Final key derivation `H(K^ || H(c))`. -/
def kemKey (P : Params) (kHat c : List Byte) : List Byte := P.sym.H (kHat ++ P.sym.H c)

/-- Coins of an encapsulation with the random string `m0`. -/
def encapsCoins (P : Params) (m0 pk : List Byte) : List Byte := (kemKr P (P.sym.H m0) (P.sym.H pk)).drop 32

/-- Ciphertext of KEM.Encaps from the random string `m0` (hashed before use). -/
def encapsC (P : Params) (m0 pk : List Byte) : List Byte :=
  let m := P.sym.H m0
  pkeEnc P m ((kemKr P m (P.sym.H pk)).drop 32) pk

/-- Shared secret of KEM.Encaps. -/
def encapsK (P : Params) (m0 pk : List Byte) : List Byte :=
  let m := P.sym.H m0
  kemKey P ((kemKr P m (P.sym.H pk)).take 32) (encapsC P m0 pk)

/-- The components of a KEM secret key. -/
def skCpa (P : Params) (sk : List Byte) : List Byte := sk.take (P.l * (32 * P.eq))
/-- The public key stored in a KEM secret key. -/
def skPk (P : Params) (sk : List Byte) : List Byte := (sk.drop (P.l * (32 * P.eq))).take (P.l * 320 + 32)
/-- The hash of the public key stored in a KEM secret key. -/
def skHpk (P : Params) (sk : List Byte) : List Byte := (sk.drop (P.l * (32 * P.eq) + (P.l * 320 + 32))).take 32
/-- The rejection secret stored in a KEM secret key. -/
def skZ (P : Params) (sk : List Byte) : List Byte := (sk.drop (P.l * (32 * P.eq) + (P.l * 320 + 32) + 32)).take 32

/-- Message of KEM.Decaps. -/
def decapsM (P : Params) (sk c : List Byte) : List Byte := pkeDec P (skCpa P sk) c
/-- `(K^', r')` -/
def decapsKr (P : Params) (sk c : List Byte) : List Byte := kemKr P (decapsM P sk c) (skHpk P sk)
/-- The ciphertext obtained by re-encryption. -/
def reEncrypt (P : Params) (sk c : List Byte) : List Byte :=
  pkeEnc P (decapsM P sk c) ((decapsKr P sk c).drop 32) (skPk P sk)

/-- KEM.Decaps. -/
def decaps (P : Params) (sk c : List Byte) : List Byte :=
  if c = reEncrypt P sk c then kemKey P ((decapsKr P sk c).take 32) c else kemKey P (skZ P sk) c

/-! ### Noise -/

/-- Rounding error of `roundP`: `2^(eq-10) * roundP x - x` modulo `q`, an integer between `1 - h1` and `h1`. -/
def roundErr (eq : Nat) (x : Poly) : Poly := fun k => h1 eq - (x k + h1 eq) % 2 ^ (eq - 10)

/-- Part of `v'` that is lost when the ciphertext keeps `eT` of 10 bits: between `-2^(9-eT)` and `2^(9-eT) - 1`. -/
def cutErr (eq eT : Nat) (v : Poly) : Poly := fun k => (v k + h1 eq) % 2 ^ (10 - eT) - 2 ^ (10 - eT - 1)

/-- The noise (times `2^(eq-10)`) of an exchange between the key pair `(A, s)` and the encryptor's secret `s'`. -/
def noise {l : Nat} (eq eT : Nat) (A : PMat l) (s s' : PVec l) : Poly := fun k =>
  innerProd (fun i => roundErr eq (matVec A s' i)) s k
    - innerProd (fun i => roundErr eq (matVec (transpose A) s i)) s' k
    + 2 ^ (eq - 10) * cutErr eq eT (innerProd (fun i => roundP eq (matVec (transpose A) s i)) s') k

/-- The exchange decodes coefficient `k` correctly: the noise is in `[-q/4, q/4)` modulo `q`. -/
def NoiseOk (eq : Nat) (e : Poly) (k : Fin 256) : Prop := (e k + 2 ^ (eq - 2)) % 2 ^ eq < 2 ^ (eq - 1)

end Saber.USpec
