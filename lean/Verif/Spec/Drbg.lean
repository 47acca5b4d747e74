import Verif.CSem
/-!
# Specification: AES-256 CTR_DRBG and the seed expander

SP 800-90A CTR_DRBG (AES-256, no derivation function, no reseeding) over a block cipher `E`, and the key stream of the NIST seed
expander.  Counters are big-endian numbers.
-/
namespace Saber.Spec.Drbg

/-- Big-endian value of a byte string. -/
def ofBE (bs : List Byte) : Nat := bs.foldl (fun acc b => 256 * acc + b.toNat) 0

/-- The `n`-byte big-endian representation of `x` modulo `256^n`. -/
def toBE (n x : Nat) : List Byte := (List.range n).map fun i => BitVec.ofNat 8 (x / 256 ^ (n - 1 - i))

/-- Internal state of the generator: key and counter. -/
structure State where
  /-- 32-byte key -/
  key : List Byte
  /-- 128-bit counter -/
  v : Nat

/-- `E_K(V+1) || E_K(V+2) || ... || E_K(V+n)`, counting modulo `2^128`. -/
def stream (E : List Byte → List Byte → List Byte) (s : State) (n : Nat) : List Byte :=
  (List.range n).flatMap fun i => E s.key (toBE 16 (s.v + i + 1))

/-- Bytewise exclusive or. -/
def xor (a b : List Byte) : List Byte := List.zipWith (· ^^^ ·) a b

/-- CTR_DRBG_Update. -/
def update (E : List Byte → List Byte → List Byte) (s : State) (data : List Byte) : State :=
  let t := xor (stream E s 3) data
  ⟨t.take 32, ofBE (t.drop 32)⟩

/-- CTR_DRBG_Instantiate. -/
def instantiate (E : List Byte → List Byte → List Byte) (entropy pers : List Byte) : State :=
  update E ⟨List.replicate 32 0, 0⟩ (xor entropy pers)

/-- Number of blocks needed for `n` bytes. -/
def blocks (n : Nat) : Nat := (n + 15) / 16

/-- CTR_DRBG_Generate: output and new state. -/
def generate (E : List Byte → List Byte → List Byte) (s : State) (n : Nat) : List Byte × State :=
  ((stream E s (blocks n)).take n, update E ⟨s.key, s.v + blocks n⟩ (List.replicate 48 0))

/-- Outputs and final state of a sequence of requests. -/
def run (E : List Byte → List Byte → List Byte) (s : State) : List Nat → List (List Byte) × State
  | [] => ([], s)
  | n :: ns =>
    let (out, s1) := generate E s n
    let (outs, s2) := run E s1 ns
    (out :: outs, s2)

/-- Block `i` of the key stream of a seed expander with key `k`, 8-byte diversifier and budget `maxlen`: the counter block is
diversifier, budget (32 bit) and block number (32 bit). -/
def expanderBlock (E : List Byte → List Byte → List Byte) (key diversifier : List Byte) (maxlen i : Nat) : List Byte :=
  E key (diversifier ++ toBE 4 maxlen ++ toBE 4 i)

/-- First `n` bytes of the key stream of a seed expander. -/
def expanderStream (E : List Byte → List Byte → List Byte) (key diversifier : List Byte) (maxlen n : Nat) : List Byte :=
  ((List.range (blocks n)).flatMap fun i => expanderBlock E key diversifier maxlen i).take n

end Saber.Spec.Drbg
