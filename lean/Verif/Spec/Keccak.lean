import Verif.Spec.Bits
/-!
# Specification: FIPS 202 (SHA-3)

A transcription of FIPS PUB 202 at the level of bits, sections 3 to 6 and appendix B.  Nothing in this file refers to 64-bit words.
-/
namespace Saber.Spec.Keccak

/-- State array `A[x, y, z]` of Keccak-p[1600] (3.1). -/
abbrev State := Fin 5 → Fin 5 → Fin 64 → Bool

/-- `C[x, z]` of theta (3.2.1). -/
def thetaC (A : State) (x : Fin 5) (z : Fin 64) : Bool :=
  A x 0 z ^^ A x 1 z ^^ A x 2 z ^^ A x 3 z ^^ A x 4 z

/-- theta (3.2.1) -/
def theta (A : State) : State := fun x y z =>
  A x y z ^^ (thetaC A (x - 1) z ^^ thetaC A (x + 1) (z - 1))

/-- The positions `(x, y)` visited by rho (3.2.2): `(1, 0)`, then `(y, 2x + 3y)`. -/
def rhoWalk : Nat → Fin 5 × Fin 5
  | 0 => (1, 0)
  | t + 1 => let (x, y) := rhoWalk t; (y, 2 * x + 3 * y)

/-- The offset `(t+1)(t+2)/2` of the lane visited at time `t < 24`; 0 for the lane `(0, 0)`. -/
def rhoOffset (x y : Fin 5) : Nat :=
  match (List.range 24).find? fun t => rhoWalk t = (x, y) with
  | some t => (t + 1) * (t + 2) / 2
  | none => 0

/-- rho (3.2.2) -/
def rho (A : State) : State := fun x y z => A x y (z - Fin.ofNat 64 (rhoOffset x y))

/-- pi (3.2.3) -/
def pi (A : State) : State := fun x y z => A (x + 3 * y) x z

/-- chi (3.2.4) -/
def chi (A : State) : State := fun x y z => A x y z ^^ (!A (x + 1) y z && A (x + 2) y z)

/-- One step of the linear feedback shift register of algorithm 5 (3.2.5). -/
def lfsrStep (R : List Bool) : List Bool :=
  let R := false :: R
  let r8 := R.getD 8 false
  let R := R.set 0 (R.getD 0 false ^^ r8)
  let R := R.set 4 (R.getD 4 false ^^ r8)
  let R := R.set 5 (R.getD 5 false ^^ r8)
  let R := R.set 6 (R.getD 6 false ^^ r8)
  R.take 8

/-- `rc(t)` (algorithm 5, 3.2.5) -/
def rc (t : Nat) : Bool :=
  ((List.range (t % 255)).foldl (fun R _ => lfsrStep R)
    [true, false, false, false, false, false, false, false]).getD 0 false

/-- Bit `z` of the round constant of round `ir`: `RC[2^j - 1] = rc(j + 7 ir)` for `0 ≤ j ≤ 6`. -/
def RC (ir : Nat) (z : Fin 64) : Bool :=
  (List.range 7).any fun j => z.val = 2 ^ j - 1 && rc (j + 7 * ir)

/-- iota (3.2.5) -/
def iota (ir : Nat) (A : State) : State := fun x y z => if x = 0 ∧ y = 0 then A x y z ^^ RC ir z else A x y z

/-- The round function (3.3). -/
def round (ir : Nat) (A : State) : State := iota ir (chi (pi (rho (theta A))))

/-- The first `n` rounds. -/
def rounds : Nat → State → State
  | 0, A => A
  | n + 1, A => round n (rounds n A)

/-- String to state array (3.1.2). -/
def stateOfString (S : List Bool) : State := fun x y z => S.getD (64 * (5 * y.val + x.val) + z.val) false

/-- State array to string (3.1.3). -/
def stringOfState (A : State) : List Bool :=
  (List.range 1600).map fun n => A (Fin.ofNat 5 (n / 64)) (Fin.ofNat 5 (n / 320)) (Fin.ofNat 64 n)

/-- The function on state arrays used by the sponge.  FIPS 202 prescribes 24 rounds, and this is what is meant wherever nothing else is said;
a different function is used only to say what the Cortex-M0 build computes (`Spec/M0.lean`). -/
class Permutation where
  /-- the function on state arrays -/
  onState : State → State

/-- Keccak-f[1600] = Keccak-p[1600, 24] (3.3, 3.4) -/
instance standard : Permutation := ⟨rounds 24⟩

/-- The function on strings: Keccak-f[1600], unless another function is given. -/
def keccakF [Permutation] (S : List Bool) : List Bool := stringOfState (Permutation.onState (stateOfString S))

variable [Permutation]

/-- `pad10*1(x, m)` (5.1) -/
def pad101 (x m : Nat) : List Bool :=
  [true] ++ List.replicate ((-(m : Int) - 2) % (x : Int)).toNat false ++ [true]

/-- One iteration of the absorbing phase (algorithm 8, step 6): `S = f(S ⊕ (P_i || 0^c))`. -/
def absorbBlock (r : Nat) (P S : List Bool) (i : Nat) : List Bool :=
  keccakF (List.zipWith xor S ((P.drop (r * i)).take r ++ List.replicate (1600 - r) false))

/-- The absorbing phase (algorithm 8, steps 1 to 6). -/
def absorb (r : Nat) (N : List Bool) : List Bool :=
  let P := N ++ pad101 r N.length
  (List.range (P.length / r)).foldl (absorbBlock r P) (List.replicate 1600 false)

/-- The first `n` output blocks `Trunc_r(S)`, `Trunc_r(f(S))`, ... (algorithm 8, steps 7 to 10). -/
def squeeze (r : Nat) (S : List Bool) : Nat → List Bool
  | 0 => []
  | n + 1 => S.take r ++ squeeze r (keccakF S) n

/-- `SPONGE[Keccak-f[1600], pad10*1, r](N, d)` (section 4). -/
def sponge (r : Nat) (N : List Bool) (d : Nat) : List Bool := (squeeze r (absorb r N) (d / r + 1)).take d

/-- The bit string of a byte string (B.1). -/
def bitsOfBytes (bs : List Byte) : List Bool := (List.range (8 * bs.length)).map (bitAt bs)

/-- The byte string of a bit string (B.1). -/
def bytesOfBits (S : List Bool) : List Byte :=
  (List.range (S.length / 8)).map fun m => BitVec.ofNat 8 (natOfBits 8 fun j => S.getD (8 * m + j) false)

/-- SHA3-256 (6.1): `KECCAK[512](M || 01, 256)` -/
def sha3_256 (M : List Byte) : List Byte := bytesOfBits (sponge (1600 - 512) (bitsOfBytes M ++ [false, true]) 256)

/-- SHA3-512 (6.1): `KECCAK[1024](M || 01, 512)` -/
def sha3_512 (M : List Byte) : List Byte := bytesOfBits (sponge (1600 - 1024) (bitsOfBytes M ++ [false, true]) 512)

/-- SHAKE128 (6.2) with an output of `n` bytes: `KECCAK[256](M || 1111, 8n)` -/
def shake128 (M : List Byte) (n : Nat) : List Byte :=
  bytesOfBits (sponge (1600 - 256) (bitsOfBytes M ++ [true, true, true, true]) (8 * n))

/-- SHAKE256 (6.2) with an output of `n` bytes: `KECCAK[512](M || 1111, 8n)` -/
def shake256 (M : List Byte) (n : Nat) : List Byte :=
  bytesOfBits (sponge (1600 - 512) (bitsOfBytes M ++ [true, true, true, true]) (8 * n))

end Saber.Spec.Keccak
