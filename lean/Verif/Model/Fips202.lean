import Verif.CSem
/-!
# `Reference_Implementation_KEM/fips202.c`

Generated from the C text: the double round below is the body of the loop at lines 108-299, statement by statement (`Do` is
spelled as in the C code).  `unsigned long long` lengths are natural numbers (no length reaches `2^64`), and every length
computed by the code is a difference or quotient that does not wrap.
-/
namespace Saber

/-- `SHAKE128_RATE` (fips202.h:6) -/
abbrev SHAKE128_RATE : Nat := 168
/-- `SHA3_256_RATE` (fips202.h:8) -/
abbrev SHA3_256_RATE : Nat := 136
/-- `SHA3_512_RATE` (fips202.h:9) -/
abbrev SHA3_512_RATE : Nat := 72

/-- `ROL` (fips202.c:13) -/
def ROL (a : BitVec 64) (offset : Nat) : BitVec 64 := (a <<< offset) ^^^ (a >>> (64 - offset))

/-- `load64` (fips202.c:15-24); `x` points to `xs[off]`. -/
def load64 (xs : List Byte) (off : Nat) : CM (BitVec 64) :=
  loop 8 0 fun i r => do
    let x ← rd xs (off + i)
    pure (r ||| (x.setWidth 64 <<< (8 * i)))

/-- `store64` (fips202.c:26-35); `x` points to `xs[off]`. -/
def store64 (xs : List Byte) (off : Nat) (u : BitVec 64) : CM (List Byte) := do
  let (xs, _) ← loop 8 (xs, u) fun i (xs, u) => do
    let xs ← wr xs (off + i) (u.setWidth 8)
    pure (xs, u >>> 8)
  pure xs

/-- `KeccakF_RoundConstants` (fips202.c:37-62) -/
def KeccakF_RoundConstants : List (BitVec 64) :=
  [0x0000000000000001,
   0x0000000000008082,
   0x800000000000808a,
   0x8000000080008000,
   0x000000000000808b,
   0x0000000080000001,
   0x8000000080008081,
   0x8000000000008009,
   0x000000000000008a,
   0x0000000000000088,
   0x0000000080008009,
   0x000000008000000a,
   0x000000008000808b,
   0x800000000000008b,
   0x8000000000008089,
   0x8000000000008003,
   0x8000000000008002,
   0x8000000000000080,
   0x000000000000800a,
   0x800000008000000a,
   0x8000000080008081,
   0x8000000000008080,
   0x0000000080000001,
   0x8000000080008008]

/-- The 25 local variables `Aba .. Asu` (fips202.c:68-72). -/
structure Lanes where
  /-- `Aba` (fips202.c:68-72) -/
  Aba : BitVec 64
  /-- `Abe` (fips202.c:68-72) -/
  Abe : BitVec 64
  /-- `Abi` (fips202.c:68-72) -/
  Abi : BitVec 64
  /-- `Abo` (fips202.c:68-72) -/
  Abo : BitVec 64
  /-- `Abu` (fips202.c:68-72) -/
  Abu : BitVec 64
  /-- `Aga` (fips202.c:68-72) -/
  Aga : BitVec 64
  /-- `Age` (fips202.c:68-72) -/
  Age : BitVec 64
  /-- `Agi` (fips202.c:68-72) -/
  Agi : BitVec 64
  /-- `Ago` (fips202.c:68-72) -/
  Ago : BitVec 64
  /-- `Agu` (fips202.c:68-72) -/
  Agu : BitVec 64
  /-- `Aka` (fips202.c:68-72) -/
  Aka : BitVec 64
  /-- `Ake` (fips202.c:68-72) -/
  Ake : BitVec 64
  /-- `Aki` (fips202.c:68-72) -/
  Aki : BitVec 64
  /-- `Ako` (fips202.c:68-72) -/
  Ako : BitVec 64
  /-- `Aku` (fips202.c:68-72) -/
  Aku : BitVec 64
  /-- `Ama` (fips202.c:68-72) -/
  Ama : BitVec 64
  /-- `Ame` (fips202.c:68-72) -/
  Ame : BitVec 64
  /-- `Ami` (fips202.c:68-72) -/
  Ami : BitVec 64
  /-- `Amo` (fips202.c:68-72) -/
  Amo : BitVec 64
  /-- `Amu` (fips202.c:68-72) -/
  Amu : BitVec 64
  /-- `Asa` (fips202.c:68-72) -/
  Asa : BitVec 64
  /-- `Ase` (fips202.c:68-72) -/
  Ase : BitVec 64
  /-- `Asi` (fips202.c:68-72) -/
  Asi : BitVec 64
  /-- `Aso` (fips202.c:68-72) -/
  Aso : BitVec 64
  /-- `Asu` (fips202.c:68-72) -/
  Asu : BitVec 64
  deriving DecidableEq, Repr

/-- Body of the loop of `KeccakF1600_StatePermute` (fips202.c:110-298); `rc0` and `rc1` are the constants
`KeccakF_RoundConstants[round]` and `KeccakF_RoundConstants[round + 1]`. -/
def keccakDoubleRound (rc0 rc1 : BitVec 64) (st : Lanes) : Lanes :=
  let Aba := st.Aba
  let Abe := st.Abe
  let Abi := st.Abi
  let Abo := st.Abo
  let Abu := st.Abu
  let Aga := st.Aga
  let Age := st.Age
  let Agi := st.Agi
  let Ago := st.Ago
  let Agu := st.Agu
  let Aka := st.Aka
  let Ake := st.Ake
  let Aki := st.Aki
  let Ako := st.Ako
  let Aku := st.Aku
  let Ama := st.Ama
  let Ame := st.Ame
  let Ami := st.Ami
  let Amo := st.Amo
  let Amu := st.Amu
  let Asa := st.Asa
  let Ase := st.Ase
  let Asi := st.Asi
  let Aso := st.Aso
  let Asu := st.Asu
  -- prepareTheta
  let BCa := Aba ^^^ Aga ^^^ Aka ^^^ Ama ^^^ Asa
  let BCe := Abe ^^^ Age ^^^ Ake ^^^ Ame ^^^ Ase
  let BCi := Abi ^^^ Agi ^^^ Aki ^^^ Ami ^^^ Asi
  let BCo := Abo ^^^ Ago ^^^ Ako ^^^ Amo ^^^ Aso
  let BCu := Abu ^^^ Agu ^^^ Aku ^^^ Amu ^^^ Asu
  -- thetaRhoPiChiIotaPrepareTheta(round  , A, E)
  let Da := BCu ^^^ ROL BCe 1
  let De := BCa ^^^ ROL BCi 1
  let Di := BCe ^^^ ROL BCo 1
  let Do := BCi ^^^ ROL BCu 1
  let Du := BCo ^^^ ROL BCa 1
  let Aba := Aba ^^^ Da
  let BCa := Aba
  let Age := Age ^^^ De
  let BCe := ROL Age 44
  let Aki := Aki ^^^ Di
  let BCi := ROL Aki 43
  let Amo := Amo ^^^ Do
  let BCo := ROL Amo 21
  let Asu := Asu ^^^ Du
  let BCu := ROL Asu 14
  let Eba := BCa ^^^ ((~~~BCe) &&& BCi)
  let Eba := Eba ^^^ rc0
  let Ebe := BCe ^^^ ((~~~BCi) &&& BCo)
  let Ebi := BCi ^^^ ((~~~BCo) &&& BCu)
  let Ebo := BCo ^^^ ((~~~BCu) &&& BCa)
  let Ebu := BCu ^^^ ((~~~BCa) &&& BCe)
  let Abo := Abo ^^^ Do
  let BCa := ROL Abo 28
  let Agu := Agu ^^^ Du
  let BCe := ROL Agu 20
  let Aka := Aka ^^^ Da
  let BCi := ROL Aka 3
  let Ame := Ame ^^^ De
  let BCo := ROL Ame 45
  let Asi := Asi ^^^ Di
  let BCu := ROL Asi 61
  let Ega := BCa ^^^ ((~~~BCe) &&& BCi)
  let Ege := BCe ^^^ ((~~~BCi) &&& BCo)
  let Egi := BCi ^^^ ((~~~BCo) &&& BCu)
  let Ego := BCo ^^^ ((~~~BCu) &&& BCa)
  let Egu := BCu ^^^ ((~~~BCa) &&& BCe)
  let Abe := Abe ^^^ De
  let BCa := ROL Abe 1
  let Agi := Agi ^^^ Di
  let BCe := ROL Agi 6
  let Ako := Ako ^^^ Do
  let BCi := ROL Ako 25
  let Amu := Amu ^^^ Du
  let BCo := ROL Amu 8
  let Asa := Asa ^^^ Da
  let BCu := ROL Asa 18
  let Eka := BCa ^^^ ((~~~BCe) &&& BCi)
  let Eke := BCe ^^^ ((~~~BCi) &&& BCo)
  let Eki := BCi ^^^ ((~~~BCo) &&& BCu)
  let Eko := BCo ^^^ ((~~~BCu) &&& BCa)
  let Eku := BCu ^^^ ((~~~BCa) &&& BCe)
  let Abu := Abu ^^^ Du
  let BCa := ROL Abu 27
  let Aga := Aga ^^^ Da
  let BCe := ROL Aga 36
  let Ake := Ake ^^^ De
  let BCi := ROL Ake 10
  let Ami := Ami ^^^ Di
  let BCo := ROL Ami 15
  let Aso := Aso ^^^ Do
  let BCu := ROL Aso 56
  let Ema := BCa ^^^ ((~~~BCe) &&& BCi)
  let Eme := BCe ^^^ ((~~~BCi) &&& BCo)
  let Emi := BCi ^^^ ((~~~BCo) &&& BCu)
  let Emo := BCo ^^^ ((~~~BCu) &&& BCa)
  let Emu := BCu ^^^ ((~~~BCa) &&& BCe)
  let Abi := Abi ^^^ Di
  let BCa := ROL Abi 62
  let Ago := Ago ^^^ Do
  let BCe := ROL Ago 55
  let Aku := Aku ^^^ Du
  let BCi := ROL Aku 39
  let Ama := Ama ^^^ Da
  let BCo := ROL Ama 41
  let Ase := Ase ^^^ De
  let BCu := ROL Ase 2
  let Esa := BCa ^^^ ((~~~BCe) &&& BCi)
  let Ese := BCe ^^^ ((~~~BCi) &&& BCo)
  let Esi := BCi ^^^ ((~~~BCo) &&& BCu)
  let Eso := BCo ^^^ ((~~~BCu) &&& BCa)
  let Esu := BCu ^^^ ((~~~BCa) &&& BCe)
  -- prepareTheta
  let BCa := Eba ^^^ Ega ^^^ Eka ^^^ Ema ^^^ Esa
  let BCe := Ebe ^^^ Ege ^^^ Eke ^^^ Eme ^^^ Ese
  let BCi := Ebi ^^^ Egi ^^^ Eki ^^^ Emi ^^^ Esi
  let BCo := Ebo ^^^ Ego ^^^ Eko ^^^ Emo ^^^ Eso
  let BCu := Ebu ^^^ Egu ^^^ Eku ^^^ Emu ^^^ Esu
  -- thetaRhoPiChiIotaPrepareTheta(round+1, E, A)
  let Da := BCu ^^^ ROL BCe 1
  let De := BCa ^^^ ROL BCi 1
  let Di := BCe ^^^ ROL BCo 1
  let Do := BCi ^^^ ROL BCu 1
  let Du := BCo ^^^ ROL BCa 1
  let Eba := Eba ^^^ Da
  let BCa := Eba
  let Ege := Ege ^^^ De
  let BCe := ROL Ege 44
  let Eki := Eki ^^^ Di
  let BCi := ROL Eki 43
  let Emo := Emo ^^^ Do
  let BCo := ROL Emo 21
  let Esu := Esu ^^^ Du
  let BCu := ROL Esu 14
  let Aba := BCa ^^^ ((~~~BCe) &&& BCi)
  let Aba := Aba ^^^ rc1
  let Abe := BCe ^^^ ((~~~BCi) &&& BCo)
  let Abi := BCi ^^^ ((~~~BCo) &&& BCu)
  let Abo := BCo ^^^ ((~~~BCu) &&& BCa)
  let Abu := BCu ^^^ ((~~~BCa) &&& BCe)
  let Ebo := Ebo ^^^ Do
  let BCa := ROL Ebo 28
  let Egu := Egu ^^^ Du
  let BCe := ROL Egu 20
  let Eka := Eka ^^^ Da
  let BCi := ROL Eka 3
  let Eme := Eme ^^^ De
  let BCo := ROL Eme 45
  let Esi := Esi ^^^ Di
  let BCu := ROL Esi 61
  let Aga := BCa ^^^ ((~~~BCe) &&& BCi)
  let Age := BCe ^^^ ((~~~BCi) &&& BCo)
  let Agi := BCi ^^^ ((~~~BCo) &&& BCu)
  let Ago := BCo ^^^ ((~~~BCu) &&& BCa)
  let Agu := BCu ^^^ ((~~~BCa) &&& BCe)
  let Ebe := Ebe ^^^ De
  let BCa := ROL Ebe 1
  let Egi := Egi ^^^ Di
  let BCe := ROL Egi 6
  let Eko := Eko ^^^ Do
  let BCi := ROL Eko 25
  let Emu := Emu ^^^ Du
  let BCo := ROL Emu 8
  let Esa := Esa ^^^ Da
  let BCu := ROL Esa 18
  let Aka := BCa ^^^ ((~~~BCe) &&& BCi)
  let Ake := BCe ^^^ ((~~~BCi) &&& BCo)
  let Aki := BCi ^^^ ((~~~BCo) &&& BCu)
  let Ako := BCo ^^^ ((~~~BCu) &&& BCa)
  let Aku := BCu ^^^ ((~~~BCa) &&& BCe)
  let Ebu := Ebu ^^^ Du
  let BCa := ROL Ebu 27
  let Ega := Ega ^^^ Da
  let BCe := ROL Ega 36
  let Eke := Eke ^^^ De
  let BCi := ROL Eke 10
  let Emi := Emi ^^^ Di
  let BCo := ROL Emi 15
  let Eso := Eso ^^^ Do
  let BCu := ROL Eso 56
  let Ama := BCa ^^^ ((~~~BCe) &&& BCi)
  let Ame := BCe ^^^ ((~~~BCi) &&& BCo)
  let Ami := BCi ^^^ ((~~~BCo) &&& BCu)
  let Amo := BCo ^^^ ((~~~BCu) &&& BCa)
  let Amu := BCu ^^^ ((~~~BCa) &&& BCe)
  let Ebi := Ebi ^^^ Di
  let BCa := ROL Ebi 62
  let Ego := Ego ^^^ Do
  let BCe := ROL Ego 55
  let Eku := Eku ^^^ Du
  let BCi := ROL Eku 39
  let Ema := Ema ^^^ Da
  let BCo := ROL Ema 41
  let Ese := Ese ^^^ De
  let BCu := ROL Ese 2
  let Asa := BCa ^^^ ((~~~BCe) &&& BCi)
  let Ase := BCe ^^^ ((~~~BCi) &&& BCo)
  let Asi := BCi ^^^ ((~~~BCo) &&& BCu)
  let Aso := BCo ^^^ ((~~~BCu) &&& BCa)
  let Asu := BCu ^^^ ((~~~BCa) &&& BCe)
  { Aba := Aba, Abe := Abe, Abi := Abi, Abo := Abo, Abu := Abu, Aga := Aga, Age := Age, Agi := Agi, Ago := Ago, Agu := Agu, Aka := Aka, Ake := Ake, Aki := Aki, Ako := Ako, Aku := Aku, Ama := Ama, Ame := Ame, Ami := Ami, Amo := Amo, Amu := Amu, Asa := Asa, Ase := Ase, Asi := Asi, Aso := Aso, Asu := Asu }

/-- `KeccakF1600_StatePermute` (fips202.c:64-329); iteration `i` of the loop has `round = 2 * i`. -/
def KeccakF1600_StatePermute (state : List (BitVec 64)) : CM (List (BitVec 64)) := do
  let Aba ← rd state 0
  let Abe ← rd state 1
  let Abi ← rd state 2
  let Abo ← rd state 3
  let Abu ← rd state 4
  let Aga ← rd state 5
  let Age ← rd state 6
  let Agi ← rd state 7
  let Ago ← rd state 8
  let Agu ← rd state 9
  let Aka ← rd state 10
  let Ake ← rd state 11
  let Aki ← rd state 12
  let Ako ← rd state 13
  let Aku ← rd state 14
  let Ama ← rd state 15
  let Ame ← rd state 16
  let Ami ← rd state 17
  let Amo ← rd state 18
  let Amu ← rd state 19
  let Asa ← rd state 20
  let Ase ← rd state 21
  let Asi ← rd state 22
  let Aso ← rd state 23
  let Asu ← rd state 24
  let st ← loop 12 (⟨Aba, Abe, Abi, Abo, Abu, Aga, Age, Agi, Ago, Agu, Aka, Ake, Aki, Ako, Aku, Ama, Ame, Ami, Amo, Amu, Asa, Ase, Asi, Aso, Asu⟩ : Lanes) fun i st => do
    let rc0 ← rd KeccakF_RoundConstants (2 * i)
    let rc1 ← rd KeccakF_RoundConstants (2 * i + 1)
    pure (keccakDoubleRound rc0 rc1 st)
  wrs state 0 [st.Aba, st.Abe, st.Abi, st.Abo, st.Abu, st.Aga, st.Age, st.Agi, st.Ago, st.Agu, st.Aka, st.Ake, st.Aki, st.Ako, st.Aku, st.Ama, st.Ame, st.Ami, st.Amo, st.Amu, st.Asa, st.Ase, st.Asi, st.Aso, st.Asu]

/-- The function to which the calls of `KeccakF1600_StatePermute` below are linked.  In the reference implementation it is the function above; the
Cortex-M0 build links the same C code with an assembly function. -/
class StatePermute where
  /-- the function: old contents of the state, new contents of the state -/
  permute : List (BitVec 64) → CM (List (BitVec 64))

instance reference : StatePermute := ⟨KeccakF1600_StatePermute⟩

/-- `for (i = 0; i < r / 8; ++i) s[i] ^= load64(m + 8 * i)` (fips202.c:344-345 and 358-359) -/
def xorBlock (s : List (BitVec 64)) (r : Nat) (m : List Byte) (mOff : Nat) : CM (List (BitVec 64)) :=
  loop (r / 8) s fun i s => do
    let v ← load64 m (mOff + 8 * i)
    let x ← rd s i
    wr s i (x ^^^ v)

variable [StatePermute]

/-- The `while (mlen >= r)` loop of `keccak_absorb` (fips202.c:342-350); returns `s`, the offset of `m` and `mlen`.
For `r = 0` the C loop does not terminate; the callers pass 168, 136 and 72. -/
def absorbLoop (s : List (BitVec 64)) (r : Nat) (m : List Byte) (mOff mlen : Nat) :
    CM (List (BitVec 64) × Nat × Nat) :=
  if h : r ≤ mlen ∧ 0 < r then do
    let s ← xorBlock s r m mOff
    let s ← StatePermute.permute s
    absorbLoop s r m (mOff + r) (mlen - r)
  else
    pure (s, mOff, mlen)
termination_by mlen

/-- `keccak_absorb` (fips202.c:334-360); `m` points to `m[mOff]`.  After the loop at 354-355 the variable `i` is `mlen`. -/
def keccak_absorb (s : List (BitVec 64)) (r : Nat) (m : List Byte) (mOff mlen : Nat) (p : Byte) :
    CM (List (BitVec 64)) := do
  let (s, mOff, mlen) ← absorbLoop s r m mOff mlen
  let t := uninit 8 20 200
  let t ← loop r t fun i t => wr t i 0
  let t ← loop mlen t fun i t => do
    let v ← rd m (mOff + i)
    wr t i v
  let t ← wr t mlen p
  let v ← rd t (r - 1)
  let t ← wr t (r - 1) (v ||| 128)
  xorBlock s r t 0

/-- `keccak_squeezeblocks` (fips202.c:362-377); `h` points to `h[hOff]`; returns the new contents of `h` and `s`.
The loop counts `nblocks` down to 0. -/
def keccak_squeezeblocks (h : List Byte) (hOff nblocks : Nat) (s : List (BitVec 64)) (r : Nat) :
    CM (List Byte × List (BitVec 64)) := do
  let (h, _, s) ← loop nblocks (h, hOff, s) fun _ (h, hOff, s) => do
    let s ← StatePermute.permute s
    let h ← loop (r >>> 3) h fun i h => do
      let v ← rd s i
      store64 h (hOff + 8 * i) v
    pure (h, hOff + r, s)
  pure (h, s)

/-- `uint64_t s[25]` cleared by the loop (fips202.c:394-395, 473-474, 492-493). -/
def clearState : CM (List (BitVec 64)) := loop 25 (uninit 64 21 25) fun i s => wr s i 0

/-- `shake128` (fips202.c:386-412).  `output` points to `output[outOff]`, `input` to `input[inOff]`; the new content of the
output object is returned.  All reads of the input happen in `keccak_absorb`, before the first write to the output, so a call in
which both pointers point into the same object is modelled by passing that object twice. -/
def shake128 (output : List Byte) (outOff outlen : Nat) (input : List Byte) (inOff inlen : Nat) : CM (List Byte) := do
  let nblocks := outlen / SHAKE128_RATE
  let s ← clearState
  let s ← keccak_absorb s SHAKE128_RATE input inOff inlen 0x1F
  let (output, s) ← keccak_squeezeblocks output outOff nblocks s SHAKE128_RATE
  let outOff := outOff + nblocks * SHAKE128_RATE
  let outlen := outlen - nblocks * SHAKE128_RATE
  if outlen ≠ 0 then
    let (t, _) ← keccak_squeezeblocks (uninit 8 22 SHAKE128_RATE) 0 1 s SHAKE128_RATE
    loop outlen output fun i output => do
      let v ← rd t i
      wr output (outOff + i) v
  else
    pure output

/-- `sha3_256` (fips202.c:467-484); same conventions as `shake128`. -/
def sha3_256 (output : List Byte) (outOff : Nat) (input : List Byte) (inOff inlen : Nat) : CM (List Byte) := do
  let s ← clearState
  let s ← keccak_absorb s SHA3_256_RATE input inOff inlen 0x06
  let (t, _) ← keccak_squeezeblocks (uninit 8 23 SHA3_256_RATE) 0 1 s SHA3_256_RATE
  loop 32 output fun i output => do
    let v ← rd t i
    wr output (outOff + i) v

/-- `sha3_512` (fips202.c:486-503); same conventions as `shake128`. -/
def sha3_512 (output : List Byte) (outOff : Nat) (input : List Byte) (inOff inlen : Nat) : CM (List Byte) := do
  let s ← clearState
  let s ← keccak_absorb s SHA3_512_RATE input inOff inlen 0x06
  let (t, _) ← keccak_squeezeblocks (uninit 8 24 SHA3_512_RATE) 0 1 s SHA3_512_RATE
  loop 64 output fun i output => do
    let v ← rd t i
    wr output (outOff + i) v

end Saber
