import Verif.Spec.Noise
/-!
# Specification: what the Cortex-M0 port computes

The port implements an earlier version of Saber: the message part of the ciphertext is computed without the rounding constant `h1`, and the
constant `h2` of the decryption differs accordingly.  Everything else is as in `Spec/Saber.lean` for the parameter set Saber.

The build also uses another function in the place of Keccak-f[1600].
-/
namespace Saber.Spec

/-- The function between the blocks of the sponge in the Cortex-M0 build.  The assembly keeps the even bits of a lane in one word and the odd bits
in another.  The C code that calls it takes these two words for the low and the high half of the lane: bit `z` of the lane for the C code is bit
`z / 32 + 2 (z mod 32)` for the assembly. -/
@[instance_reducible] def m0Permutation : Keccak.Permutation where
  onState A :=
    let inner : Keccak.State := fun x y z => A x y (Fin.ofNat 64 (z.val / 2 + 32 * (z.val % 2)))
    fun x y z => Keccak.rounds 24 inner x y (Fin.ofNat 64 (z.val / 32 + 2 * (z.val % 32)))

/-- `c_m = ((v' + 2^(ep-1) m) mod p) >> (ep - eT)` with `eT = 4` -/
def m0EncodeMsg (v m : Poly) : Poly := fun k => (v k + 512 * m k) % 1024 / 64

variable [Keccak.Permutation]

/-- Encryption: as `pkeEnc saber`, with `m0EncodeMsg`. -/
def m0PkeEnc (m seedS pk : List Byte) : List Byte :=
  let A := genMatrix saber (pk.drop 960)
  let s' := genSecret saber seedS
  let b' : PVec 3 := fun i => roundP (matVec A s' i)
  let b := unpackVec 10 3 pk
  packVec 10 b' ++ pack 4 (m0EncodeMsg (innerProd b s') (unpack 1 m))

/-- `m' = ((v - 2^(ep-eT) c_m + h2) mod p) >> (ep - 1)` with `h2 = 2^(ep-2) - 2^(ep-eT-1)` -/
def m0DecodeMsg (v cm : Poly) : Poly := fun k => (v k - 64 * cm k + 224) % 1024 / 512

/-- The 256 message bits obtained from a secret key and a ciphertext. -/
def m0DecBits (sk c : List Byte) : Poly :=
  let s := unpackVec 13 3 sk
  let b' := unpackVec 10 3 c
  m0DecodeMsg (innerProd b' s) (unpack 4 (c.drop 960))

/-- The message as the port stores it: one little-endian 16-bit word per bit. -/
def m0Words (p : Poly) : List Byte := (List.finRange 256).flatMap fun k => [BitVec.ofInt 8 (p k), 0]

/-- The ciphertext of encapsulation from the random string `m0` (hashed before use). -/
def m0EncapsC (m0 pk : List Byte) : List Byte :=
  let m := Keccak.sha3_256 m0
  m0PkeEnc m ((kemKr m (Keccak.sha3_256 pk)).drop 32) pk

/-- The shared secret of encapsulation. -/
def m0EncapsK (m0 pk : List Byte) : List Byte :=
  let m := Keccak.sha3_256 m0
  kemKey ((kemKr m (Keccak.sha3_256 pk)).take 32) (m0EncapsC m0 pk)

/-- The noise (times 8) of an exchange, as `noise` in `Spec/Noise.lean` but for the part that is cut off without rounding. -/
def m0Noise {l : Nat} (A : PMat l) (s s' : PVec l) : Poly := fun k =>
  innerProd (fun i => roundErr (matVec A s' i)) s k
    - innerProd (fun i => roundErr (matVec (transpose A) s i)) s' k
    + 8 * (innerProd (fun i => roundP (matVec (transpose A) s i)) s' k % 64 - 32)

end Saber.Spec
