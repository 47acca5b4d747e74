import Verif.Spec.USaber
import Verif.Spec.Fraction
import Mathlib.Data.Fintype.Prod
import Mathlib.Data.Fintype.Pi
import Mathlib.Data.Rat.Init
import Mathlib.Algebra.Order.Ring.Rat
/-!
# Specification: hiding of messages, and the two problems it rests on

The game of indistinguishable encryptions: an attacker sees a public key, names two messages, sees an encryption of one of them and has to say which.
Guessing wins half of the games.

The module learning with rounding problem: tell rounded products with a secret from random numbers.  It occurs twice, for the public key and for the
ciphertext.  In both, matrix and secrets are those that the code generates from random seeds, so nothing is assumed about the expander.
-/
namespace Saber.Spec

/-- What the games need of a scheme. -/
structure Pke where
  /-- rank of the module -/
  l : Nat
  /-- `q = 2^eq` -/
  eq : Nat
  /-- `T = 2^eT` -/
  eT : Nat
  /-- the seed in the public key, from 32 random bytes -/
  seedOf : List Byte → List Byte
  /-- the matrix from the seed in the public key -/
  gen : List Byte → PMat l
  /-- a secret vector from 32 random bytes -/
  secret : List Byte → PVec l

/-- Saber. -/
def saberPke [Keccak.Permutation] (P : Params) : Pke := ⟨P.l, 13, P.eT, fun r => Keccak.shake128 r 32, genMatrix P, genSecret P⟩
/-- uSaber and the 90s variants. -/
def uPke (P : USpec.Params) : Pke := ⟨P.l, P.eq, P.eT, fun r => P.sym.prf r 32, USpec.genMatrix P, USpec.genSecret P⟩

/-- Scaling from `q = 2^eq` to `p = 2^10` with rounding. -/
def roundTo10 (eq : Nat) (x : Poly) : Poly := fun k => (x k + 2 ^ (eq - 11)) % 2 ^ eq / 2 ^ (eq - 10)

/-- Vectors of polynomials with coefficients modulo `2^k`. -/
abbrev RVec (l k : Nat) := Fin l → Fin 256 → Fin (2 ^ k)

/-- The integers in `[0, 2^k)`. -/
def RVec.int {l k : Nat} (v : RVec l k) : PVec l := fun i n => (v i n).val

/-- Advantage of `B` in telling the vector of a public key, `A^T s` rounded, from random numbers.  `B` is given a random element of `Ω`, the seed of the matrix and
the vector. -/
noncomputable def keyAdvantage (S : Pke) {Ω : Type} [Fintype Ω] (B : Ω → List Byte → PVec S.l → Prop) : Rat :=
  |fraction (fun d : Ω × Bytes 32 × Bytes 32 => B d.1 (S.seedOf (List.ofFn d.2.1))
      fun i => roundTo10 S.eq (matVec (transpose (S.gen (S.seedOf (List.ofFn d.2.1)))) (S.secret (List.ofFn d.2.2)) i)) -
    fraction (fun d : Ω × Bytes 32 × RVec S.l 10 => B d.1 (S.seedOf (List.ofFn d.2.1)) d.2.2.int)|

/-- Advantage of `B` in telling the pair of `A s` and `<c, s>`, rounded, for a random vector `c`, from random numbers.  `B` is given a random element of `Ω`, the seed of
the matrix, `c`, and the pair. -/
noncomputable def encAdvantage (S : Pke) {Ω : Type} [Fintype Ω] (B : Ω → List Byte → PVec S.l → PVec S.l → Poly → Prop) : Rat :=
  |fraction (fun d : Ω × Bytes 32 × RVec S.l S.eq × Bytes 32 => B d.1 (S.seedOf (List.ofFn d.2.1)) d.2.2.1.int
      (fun i => roundTo10 S.eq (matVec (S.gen (S.seedOf (List.ofFn d.2.1))) (S.secret (List.ofFn d.2.2.2)) i))
      (roundTo10 S.eq (innerProd d.2.2.1.int (S.secret (List.ofFn d.2.2.2))))) -
    fraction (fun d : Ω × Bytes 32 × RVec S.l S.eq × RVec S.l 10 × RVec 1 10 => B d.1 (S.seedOf (List.ofFn d.2.1)) d.2.2.1.int
      d.2.2.2.1.int (d.2.2.2.2.int 0))|

/-- An attacker: two messages for a public key, and a guess for a public key and a ciphertext.  `Ω` are its random choices. -/
structure Attacker (Ω : Type) where
  messages : Ω → List Byte → Bool → List Byte
  guess : Ω → List Byte → List Byte → Bool

/-- Messages have 32 bytes. -/
def Attacker.Fair {Ω : Type} (a : Attacker Ω) : Prop := ∀ ω pk b, (a.messages ω pk b).length = 32

/-- From an algorithm that recovers messages: encrypt one of two random messages, and guess the second if the algorithm returns it.  `M` makes messages from
random bytes. -/
def recoverAttacker (M : Bytes 32 → List Byte) {Ω : Type} (R : Ω → List Byte → List Byte → List Byte) : Attacker (Ω × Bytes 32 × Bytes 32) where
  messages ω _ b := M (if b then ω.2.2 else ω.2.1)
  guess ω pk c := decide (R ω.1 pk c = M ω.2.2)

/-! ### The two reductions: each runs the attacker once -/

/-- A public key from its parts. -/
def Pke.key (S : Pke) (seed : List Byte) (b : PVec S.l) : List Byte := packVec 10 b ++ seed

/-- The public key from the random bytes of key generation. -/
def Pke.realKey (S : Pke) (r1 r2 : Bytes 32) : List Byte := S.key (S.seedOf (List.ofFn r1)) fun i =>
  roundTo10 S.eq (matVec (transpose (S.gen (S.seedOf (List.ofFn r1)))) (S.secret (List.ofFn r2)) i)

/-- Encryption. -/
def Pke.enc (S : Pke) (m coins pk : List Byte) : List Byte :=
  packVec 10 (fun i => roundTo10 S.eq (matVec (S.gen (pk.drop (S.l * 320))) (S.secret coins) i)) ++
  pack S.eT fun k => (innerProd (unpackVec 10 S.l pk) (S.secret coins) k + 2 ^ (S.eq - 11) - 512 * unpack 1 m k) % 1024 / 2 ^ (10 - S.eT)

/-- Against the public key: take the vector for that of a public key, play the game, and answer whether the attacker wins. -/
def keyAttack (S : Pke) {Ω : Type} (a : Attacker Ω) : Ω × Bytes 32 × Bool → List Byte → PVec S.l → Prop := fun ω seed b =>
  a.guess ω.1 (S.key seed b) (S.enc (a.messages ω.1 (S.key seed b) ω.2.2) (List.ofFn ω.2.1) (S.key seed b)) = ω.2.2

/-- Against the ciphertext: take the low bits of `c` for the vector of a public key, the first part of the pair for the first part of a ciphertext, and the middle
bits of the second part, with a message added, for the second part of a ciphertext, and answer whether the attacker wins. -/
def encAttack (S : Pke) {Ω : Type} (a : Attacker Ω) : Ω × Bool → List Byte → PVec S.l → PVec S.l → Poly → Prop := fun ω seed c u w =>
  a.guess ω.1 (S.key seed c) (packVec 10 u ++
    pack S.eT fun k => (w k - 2 ^ (19 - S.eq) * unpack 1 (a.messages ω.1 (S.key seed c) ω.2) k) % 2 ^ (20 - S.eq) / 2 ^ (20 - S.eq - S.eT)) = ω.2

end Saber.Spec
