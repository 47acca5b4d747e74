import Verif.Spec.Noise
import Verif.Spec.Fraction
/-!
# Specification: the probability of a decryption failure

`secretFrom` is the secret vector as a function of the bytes it is sampled from: `genSecret P seed` is `secretFrom` of the expansion of
`seed`.  The idealised exchange has the same formula for the noise as `Spec/Noise.lean`, with independent uniformly distributed values
in the places of the rounding errors; this is the assumption under which the failure probability of Saber is stated
(`Scripts/Python_Scripts/select_params/select_params.py`).
-/
namespace Saber.Spec

/-- Number of bytes from which a secret vector is sampled. -/
def Params.secretBytes (P : Params) : Nat := P.l * P.mu * 32

/-- The secret vector sampled from a byte string. -/
def secretFrom (P : Params) (buf : List Byte) : PVec P.l := fun i => centredBinomial P.mu (buf.drop (i.val * P.mu * 32))

/-- The exchange between the secrets sampled from two byte strings decodes some bit of the message wrongly. -/
def ExchangeFails (P : Params) (A : PMat P.l) (buf buf' : List Byte) : Prop :=
  ∃ k, ¬ NoiseOk (noise P.eT A (secretFrom P buf) (secretFrom P buf')) k

/-- The random choices of an idealised exchange: the bytes of the two secrets, two vectors of rounding errors (0 to 7 stands for the error
-3 to 4) and the part of `v'` that is cut off. -/
abbrev IdealDraw (P : Params) :=
  (Bytes P.secretBytes × Bytes P.secretBytes) × ((Fin P.l → Fin 256 → Fin 8) × (Fin P.l → Fin 256 → Fin 8)) × (Fin 256 → Fin (2 ^ (10 - P.eT)))

/-- The noise of an idealised exchange; compare `noise`. -/
def idealNoise (P : Params) (d : IdealDraw P) : Poly := fun k =>
  innerProd (fun i n => ((d.2.1.1 i n).val : Int) - 3) (secretFrom P (List.ofFn d.1.1)) k
    - innerProd (fun i n => ((d.2.1.2 i n).val : Int) - 3) (secretFrom P (List.ofFn d.1.2)) k
    + 8 * (((d.2.2 k).val : Int) - 2 ^ (10 - P.eT - 1))

/-- The idealised exchange decodes some bit of the message wrongly. -/
def IdealFails (P : Params) (d : IdealDraw P) : Prop := ∃ k, ¬ NoiseOk (idealNoise P d) k

end Saber.Spec
