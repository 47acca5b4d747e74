import Verif.Spec.USaber
import Verif.Spec.Fraction
/-!
# Specification: the probability of a decryption failure of the variants

The same as `Spec/Failure.lean`, with the modulus and the sampler of a variant.
-/
namespace Saber.USpec
open Saber.Spec (Poly PVec PMat Bytes innerProd)

/-- Number of bytes from which a secret vector is sampled. -/
def Params.secretBytes (P : Params) : Nat := P.l * P.coinBits * 32

/-- The secret vector sampled from a byte string: `genSecret P seed` is `secretFrom` of the expansion of `seed`. -/
def secretFrom (P : Params) (buf : List Byte) : PVec P.l := fun i => sample P (buf.drop (i.val * P.coinBits * 32))

/-- The exchange between the secrets sampled from two byte strings decodes some bit of the message wrongly. -/
def ExchangeFails (P : Params) (A : PMat P.l) (buf buf' : List Byte) : Prop :=
  ∃ k, ¬ NoiseOk P.eq (noise P.eq P.eT A (secretFrom P buf) (secretFrom P buf')) k

/-- The random choices of an idealised exchange: the bytes of the two secrets, two vectors of rounding errors (0, 1, ... stand for the errors
`1 - h1`, `2 - h1`, ...) and the part of `v'` that is cut off. -/
abbrev IdealDraw (P : Params) :=
  (Bytes P.secretBytes × Bytes P.secretBytes) × ((Fin P.l → Fin 256 → Fin (2 ^ (P.eq - 10))) × (Fin P.l → Fin 256 → Fin (2 ^ (P.eq - 10))))
    × (Fin 256 → Fin (2 ^ (10 - P.eT)))

/-- The noise of an idealised exchange; compare `noise`. -/
def idealNoise (P : Params) (d : IdealDraw P) : Poly := fun k =>
  innerProd (fun i n => ((d.2.1.1 i n).val : Int) + 1 - h1 P.eq) (secretFrom P (List.ofFn d.1.1)) k
    - innerProd (fun i n => ((d.2.1.2 i n).val : Int) + 1 - h1 P.eq) (secretFrom P (List.ofFn d.1.2)) k
    + 2 ^ (P.eq - 10) * (((d.2.2 k).val : Int) - 2 ^ (10 - P.eT - 1))

/-- The idealised exchange decodes some bit of the message wrongly. -/
def IdealFails (P : Params) (d : IdealDraw P) : Prop := ∃ k, ¬ NoiseOk P.eq (idealNoise P d) k

end Saber.USpec
