import Verif.Spec.Hex
/-!
# Specification: the files of known-answer tests

The request file lists numbered seeds.  The response file adds to each seed the key pair, the ciphertext and the shared secret that the
scheme computes when its random bytes come from a CTR_DRBG instantiated with the seed.
-/
namespace Saber.Spec.KatFile
open Drbg Hex

/-- The characters of a string. -/
def str (s : String) : List Byte := s.toList.map fun c => BitVec.ofNat 8 c.toNat

/-- Decimal notation. -/
def decimal (n : Nat) : List Byte :=
  if n < 10 then [BitVec.ofNat 8 (48 + n)] else decimal (n / 10) ++ [BitVec.ofNat 8 (48 + n % 10)]

/-- A key encapsulation mechanism as functions of its random bytes: three strings for the keys, one for the encapsulation. -/
structure Kem where
  /-- name in the header of the response file -/
  name : String
  /-- public key -/
  pk : List Byte → List Byte → List Byte
  /-- secret key -/
  sk : List Byte → List Byte → List Byte → List Byte
  /-- ciphertext of an encapsulation -/
  ct : List Byte → List Byte → List Byte
  /-- shared secret of an encapsulation -/
  ss : List Byte → List Byte → List Byte
  /-- shared secret of a decapsulation (secret key, ciphertext) -/
  dec : List Byte → List Byte → List Byte

/-- Label, two digits per byte, line end. -/
def line (label : String) (bs : List Byte) : List Byte := str label ++ text bs ++ str "\n"

/-- The entropy from which the seeds come: bytes 0, 1, ..., 47. -/
def entropy : List Byte := (List.range 48).map fun i => BitVec.ofNat 8 i

/-- The first `n` seeds. -/
def seeds (E : List Byte → List Byte → List Byte) (n : Nat) : List (List Byte) :=
  (run E (instantiate E entropy (List.replicate 48 0)) (List.replicate n 48)).1

/-- Entry of the request file. -/
def request (i : Nat) (seed : List Byte) : List Byte :=
  str "count = " ++ decimal i ++ str "\n" ++ line "seed = " seed ++ str "pk =\nsk =\nct =\nss =\n\n"

/-- The random bytes that belong to a seed: four strings of 32 bytes. -/
def draws (E : List Byte → List Byte → List Byte) (seed : List Byte) : List (List Byte) :=
  (run E (instantiate E seed (List.replicate 48 0)) [32, 32, 32, 32]).1

/-- Entry of the response file. -/
def response (K : Kem) (E : List Byte → List Byte → List Byte) (i : Nat) (seed : List Byte) : List Byte :=
  let d := fun j => (draws E seed).getD j []
  let pk := K.pk (d 0) (d 1)
  str "count = " ++ decimal i ++ str "\n" ++ line "seed = " seed ++ line "pk = " pk ++ line "sk = " (K.sk (d 0) (d 1) (d 2)) ++
    line "ct = " (K.ct (d 3) pk) ++ line "ss = " (K.ss (d 3) pk) ++ str "\n"

/-- The decapsulation of the ciphertext of the entry gives its shared secret. -/
def agrees (K : Kem) (E : List Byte → List Byte → List Byte) (seed : List Byte) : Prop :=
  let d := fun j => (draws E seed).getD j []
  let pk := K.pk (d 0) (d 1)
  K.dec (K.sk (d 0) (d 1) (d 2)) (K.ct (d 3) pk) = K.ss (d 3) pk

/-- Header of the response file. -/
def header (K : Kem) : List Byte := str "# " ++ str K.name ++ str "\n\n"

/-- The complete request file with `n` entries. -/
def requestFile (E : List Byte → List Byte → List Byte) (n : Nat) : List Byte :=
  ((seeds E n).zipIdx).flatMap fun s => request s.2 s.1

/-- The first `n` entries of the response file, with the header. -/
def responseFile (K : Kem) (E : List Byte → List Byte → List Byte) (n : Nat) : List Byte :=
  header K ++ ((seeds E n).zipIdx).flatMap fun s => response K E s.2 s.1

end Saber.Spec.KatFile
