import Verif.CSem
/-!
# Specification: AES-256 (FIPS 197) and counter mode

A block is a list of 16 bytes; the byte of row `r` and column `c` of the state is at position `r + 4 c` (FIPS 197, section 3.4).
-/
namespace Saber.Spec.Aes

/-- Multiplication by `x` modulo `x^8 + x^4 + x^3 + x + 1` (section 4.2). -/
def xtime (b : Byte) : Byte := (b <<< 1) ^^^ (if b.getLsbD 7 then 0x1b else 0)

/-- Multiplication in GF(2^8). -/
def gmul (a b : Byte) : Byte :=
  (List.range 8).foldr (fun i acc => xtime acc ^^^ (if a.getLsbD i then b else 0)) 0

/-- The multiplicative inverse, `b^254`; zero for zero. -/
def inv (b : Byte) : Byte :=
  let b2 := gmul b b
  let b4 := gmul b2 b2
  let b8 := gmul b4 b4
  let b16 := gmul b8 b8
  let b32 := gmul b16 b16
  let b64 := gmul b32 b32
  let b128 := gmul b64 b64
  gmul b128 (gmul b64 (gmul b32 (gmul b16 (gmul b8 (gmul b4 b2)))))

/-- `SubBytes` on one byte: inversion and an affine map (section 5.1.1). -/
def sbox (b : Byte) : Byte :=
  let c := inv b
  BitVec.ofBoolListLE ((List.range 8).map fun i =>
    c.getLsbD i ^^ c.getLsbD ((i + 4) % 8) ^^ c.getLsbD ((i + 5) % 8) ^^ c.getLsbD ((i + 6) % 8) ^^ c.getLsbD ((i + 7) % 8)
      ^^ (0x63 : Byte).getLsbD i)

/-- `ShiftRows` (section 5.1.2). -/
def shiftRows (s : List Byte) : List Byte := (List.range 16).map fun k => s.getD (k % 4 + 4 * ((k / 4 + k % 4) % 4)) 0

/-- `MixColumns` (section 5.1.3). -/
def mixColumns (s : List Byte) : List Byte :=
  (List.range 16).map fun k =>
    let r := k % 4
    let c := k / 4
    gmul 2 (s.getD (r + 4 * c) 0) ^^^ gmul 3 (s.getD ((r + 1) % 4 + 4 * c) 0) ^^^ s.getD ((r + 2) % 4 + 4 * c) 0
      ^^^ s.getD ((r + 3) % 4 + 4 * c) 0

/-- Exclusive or of byte strings. -/
def xors (a b : List Byte) : List Byte := List.zipWith (· ^^^ ·) a b

/-- `x^(i-1)` in GF(2^8), followed by three zero bytes (section 5.2). -/
def rcon (i : Nat) : List Byte := [(List.range (i - 1)).foldl (fun b _ => xtime b) 1, 0, 0, 0]

/-- The word `w[i]` of the key schedule for a key of 8 words (section 5.2, `Nk = 8`). -/
def keyWord (key : List Byte) (i : Nat) : List Byte :=
  if i < 8 then (key.drop (4 * i)).take 4
  else
    let temp := keyWord key (i - 1)
    let temp :=
      if i % 8 = 0 then xors ((temp.drop 1 ++ temp.take 1).map sbox) (rcon (i / 8))
      else if i % 8 = 4 then temp.map sbox
      else temp
    xors (keyWord key (i - 8)) temp

/-- The round key of a round. -/
def roundKey (key : List Byte) (i : Nat) : List Byte := (List.range 4).flatMap fun j => keyWord key (4 * i + j)

/-- AES-256 (section 5.1, `Nr = 14`). -/
def aes256 (key block : List Byte) : List Byte :=
  let s := xors block (roundKey key 0)
  let s := (List.range 13).foldl (fun s i => xors (mixColumns (shiftRows (s.map sbox))) (roundKey key (i + 1))) s
  xors (shiftRows (s.map sbox)) (roundKey key 14)

/-- The 32-bit counter in big-endian order. -/
def be32 (i : Nat) : List Byte := [BitVec.ofNat 8 (i / 2 ^ 24), BitVec.ofNat 8 (i / 2 ^ 16), BitVec.ofNat 8 (i / 2 ^ 8), BitVec.ofNat 8 i]

/-- `n` bytes of the key stream of AES-256 in counter mode with a nonce of 12 bytes and a counter of 4 bytes from zero. -/
def ctr (key nonce : List Byte) (n : Nat) : List Byte :=
  ((List.range ((n + 15) / 16)).flatMap fun i => aes256 key (nonce ++ be32 i)).take n

/-- The number that a byte string represents, most significant byte first. -/
def beNat (b : List Byte) : Nat := b.foldl (fun acc x => 256 * acc + x.toNat) 0

/-- A 128-bit counter in big-endian order (modulo `2^128`). -/
def be128 (c : Nat) : List Byte := (List.range 16).map fun j => BitVec.ofNat 8 (c / 256 ^ (15 - j))

/-- `n` bytes of the key stream of AES-256 in counter mode whose block `i` is the encryption of the counter `c i`. -/
def ctrBlocks (key : List Byte) (c : Nat → Nat) (n : Nat) : List Byte :=
  ((List.range ((n + 15) / 16)).flatMap fun i => aes256 key (be128 (c i))).take n

/-- `n` bytes of the key stream of AES-256 in counter mode with an initial counter block of 16 bytes that is incremented as one number of
128 bits (NIST SP 800-38A, appendix B.1, with `m = 128`). -/
def ctr128 (key iv : List Byte) (n : Nat) : List Byte := ctrBlocks key (fun i => beNat iv + i) n

end Saber.Spec.Aes
