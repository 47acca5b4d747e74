import Verif.Spec.Saber
/-!
# Specification: decryption noise

Scaling from `q = 2^13` to `p = 2^10` replaces `x` by `roundP x`, and `8 * roundP x = x + roundErr x` modulo `q`, with an error
between `-3` and `4`.  The noise of one exchange, scaled by 8, is the combination of these errors with the secrets, plus the part
of the encryptor's value that is cut off when the message is embedded.
-/
namespace Saber.Spec

/-- Rounding error of `roundP`: `8 * roundP x - x` modulo `q`, as an integer between -3 and 4. -/
def roundErr (x : Poly) : Poly := fun k => 4 - (x k + 4) % 8

/-- Part of `v'` that is lost when the ciphertext keeps `eT` of 10 bits: between `-2^(9-eT)` and `2^(9-eT) - 1`. -/
def cutErr (eT : Nat) (v : Poly) : Poly := fun k => (v k + h1) % 2 ^ (10 - eT) - 2 ^ (10 - eT - 1)

/-- The noise (times 8) of an exchange between the key pair `(A, s)` and the encryptor's secret `s'`. -/
def noise {l : Nat} (eT : Nat) (A : PMat l) (s s' : PVec l) : Poly := fun k =>
  innerProd (fun i => roundErr (matVec A s' i)) s k
    - innerProd (fun i => roundErr (matVec (transpose A) s i)) s' k
    + 8 * cutErr eT (innerProd (fun i => roundP (matVec (transpose A) s i)) s') k

/-- The exchange decodes coefficient `k` correctly: the noise is in `[-q/4, q/4)` modulo `q`. -/
def NoiseOk (e : Poly) (k : Fin 256) : Prop := (e k + 2048) % 8192 < 4096

end Saber.Spec
