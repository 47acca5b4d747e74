import Verif.Model.Fips202
/-!
# `Variants/SaberX4_avx2/keccak4x`: Keccak-p[1600] on four states at once

Generated by `tools/keccak4x2lean.py` from `KeccakP-1600-times4-SIMD256.c` and `KeccakP-1600-unrolling.macros`: the macros are
transcribed statement by statement.  A `__m256i` holds four 64-bit lanes, lane 0 in the low bits.  A macro call
`thetaRhoPiChiIotaPrepareTheta(i, A, E)` reads the variables `A..` and `C.` and assigns all the variables `E..` and `C.`; it also
changes the variables `A..`, which are assigned again before they are read (checked by the script).
-/
namespace Saber.X4

/-- `V256` (keccak4x/KeccakP-1600-times4-SIMD256.c:35): the four 64-bit lanes of a `__m256i`. -/
abbrev V256 := Fin 4 → BitVec 64

/-- `XOR256` (keccak4x/KeccakP-1600-times4-SIMD256.c:54) -/
def XOR256 (a b : V256) : V256 := fun l => a l ^^^ b l
/-- `ANDnu256` (keccak4x/KeccakP-1600-times4-SIMD256.c:40) -/
def ANDnu256 (a b : V256) : V256 := fun l => ~~~(a l) &&& b l
/-- `CONST256_64` (keccak4x/KeccakP-1600-times4-SIMD256.c:42) -/
def CONST256_64 (a : BitVec 64) : V256 := fun _ => a
/-- `ROL64in256` (keccak4x/KeccakP-1600-times4-SIMD256.c:46) -/
def ROL64in256 (a : V256) (o : Nat) : V256 := fun l => (a l <<< o) ||| (a l >>> (64 - o))

/-- Byte `k` of the 32 bytes of a `__m256i`. -/
def byteOf (a : V256) (k : Nat) : Byte := (a (Fin.ofNat 4 (k / 8)) >>> (8 * (k % 8))).setWidth 8

/-- Byte `k` of `_mm256_shuffle_epi8(a, ctl)`: 0 if the top bit of the control byte is set, else the byte of the same 128-bit
half of `a` that the low four bits of the control byte select. -/
def shuffleByte (a ctl : V256) (k : Nat) : Byte :=
  let c := byteOf ctl k
  if c.msb then 0 else byteOf a (16 * (k / 16) + c.toNat % 16)

/-- `_mm256_shuffle_epi8` -/
def shuffle_epi8 (a ctl : V256) : V256 := fun l =>
  (shuffleByte a ctl (8 * l + 7) ++ shuffleByte a ctl (8 * l + 6) ++ shuffleByte a ctl (8 * l + 5) ++ shuffleByte a ctl (8 * l + 4) ++
    shuffleByte a ctl (8 * l + 3) ++ shuffleByte a ctl (8 * l + 2) ++ shuffleByte a ctl (8 * l + 1) ++ shuffleByte a ctl (8 * l) : BitVec 64)

/-- `rho8` (keccak4x/KeccakP-1600-times4-SIMD256.c:49) -/
def rho8 : V256 := fun l => ([0x0605040302010007, 0x0E0D0C0B0A09080F, 0x1615141312111017, 0x1E1D1C1B1A19181F] : List (BitVec 64)).getD l 0
/-- `rho56` (keccak4x/KeccakP-1600-times4-SIMD256.c:50) -/
def rho56 : V256 := fun l => ([0x0007060504030201, 0x080F0E0D0C0B0A09, 0x1017161514131211, 0x181F1E1D1C1B1A19] : List (BitVec 64)).getD l 0

/-- `ROL64in256_8` (keccak4x/KeccakP-1600-times4-SIMD256.c:47) -/
def ROL64in256_8 (a : V256) : V256 := shuffle_epi8 a rho8
/-- `ROL64in256_56` (keccak4x/KeccakP-1600-times4-SIMD256.c:48) -/
def ROL64in256_56 (a : V256) : V256 := shuffle_epi8 a rho56

/-- `KeccakF1600RoundConstants` (keccak4x/KeccakP-1600-times4-SIMD256.c:688-712) -/
def KeccakF1600RoundConstants : List (BitVec 64) :=
  [0x0000000000000001,
   0x0000000000008082,
   0x800000000000808a,
   0x8000000080008000,
   0x000000000000808b,
   0x0000000080000001,
   0x8000000080008081,
   0x8000000000008009,
   0x000000000000008a,
   0x0000000000000088,
   0x0000000080008009,
   0x000000008000000a,
   0x000000008000808b,
   0x800000000000008b,
   0x8000000000008089,
   0x8000000000008003,
   0x8000000000008002,
   0x8000000000000080,
   0x000000000000800a,
   0x800000008000000a,
   0x8000000080008081,
   0x8000000000008080,
   0x0000000080000001,
   0x8000000080008008]

/-- The variables `Aba .. Asu` or `Eba .. Esu` (`declareABCDE`, keccak4x/KeccakP-1600-times4-SIMD256.c:444-462). -/
structure Vars where
  ba : V256
  be : V256
  bi : V256
  bo : V256
  bu : V256
  ga : V256
  ge : V256
  gi : V256
  go : V256
  gu : V256
  ka : V256
  ke : V256
  ki : V256
  ko : V256
  ku : V256
  ma : V256
  me : V256
  mi : V256
  mo : V256
  mu : V256
  sa : V256
  se : V256
  si : V256
  so : V256
  su : V256

/-- The variables `Ca .. Cu` (`declareABCDE`). -/
structure Cols where
  a : V256
  e : V256
  i : V256
  o : V256
  u : V256

/-- `prepareTheta` (keccak4x/KeccakP-1600-times4-SIMD256.c:464-470) -/
def prepareTheta (A : Vars) : Cols :=
  let Aba := A.ba
  let Abe := A.be
  let Abi := A.bi
  let Abo := A.bo
  let Abu := A.bu
  let Aga := A.ga
  let Age := A.ge
  let Agi := A.gi
  let Ago := A.go
  let Agu := A.gu
  let Aka := A.ka
  let Ake := A.ke
  let Aki := A.ki
  let Ako := A.ko
  let Aku := A.ku
  let Ama := A.ma
  let Ame := A.me
  let Ami := A.mi
  let Amo := A.mo
  let Amu := A.mu
  let Asa := A.sa
  let Ase := A.se
  let Asi := A.si
  let Aso := A.so
  let Asu := A.su
  let Ca := XOR256 Aba (XOR256 Aga (XOR256 Aka (XOR256 Ama Asa)))
  let Ce := XOR256 Abe (XOR256 Age (XOR256 Ake (XOR256 Ame Ase)))
  let Ci := XOR256 Abi (XOR256 Agi (XOR256 Aki (XOR256 Ami Asi)))
  let Co := XOR256 Abo (XOR256 Ago (XOR256 Ako (XOR256 Amo Aso)))
  let Cu := XOR256 Abu (XOR256 Agu (XOR256 Aku (XOR256 Amu Asu)))
  ⟨Ca, Ce, Ci, Co, Cu⟩

/-- `thetaRhoPiChiIotaPrepareTheta` (keccak4x/KeccakP-1600-times4-SIMD256.c:473-591); `rc` is `KeccakF1600RoundConstants[i]`. -/
def thetaRhoPiChiIotaPrepareTheta (rc : BitVec 64) (A : Vars) (C : Cols) : Vars × Cols :=
  let Aba := A.ba
  let Abe := A.be
  let Abi := A.bi
  let Abo := A.bo
  let Abu := A.bu
  let Aga := A.ga
  let Age := A.ge
  let Agi := A.gi
  let Ago := A.go
  let Agu := A.gu
  let Aka := A.ka
  let Ake := A.ke
  let Aki := A.ki
  let Ako := A.ko
  let Aku := A.ku
  let Ama := A.ma
  let Ame := A.me
  let Ami := A.mi
  let Amo := A.mo
  let Amu := A.mu
  let Asa := A.sa
  let Ase := A.se
  let Asi := A.si
  let Aso := A.so
  let Asu := A.su
  let Ca := C.a
  let Ce := C.e
  let Ci := C.i
  let Co := C.o
  let Cu := C.u
  let Ce1 := ROL64in256 Ce 1
  let Da := XOR256 Cu Ce1
  let Ci1 := ROL64in256 Ci 1
  let De := XOR256 Ca Ci1
  let Co1 := ROL64in256 Co 1
  let Di := XOR256 Ce Co1
  let Cu1 := ROL64in256 Cu 1
  let Do := XOR256 Ci Cu1
  let Ca1 := ROL64in256 Ca 1
  let Du := XOR256 Co Ca1
  let Aba := XOR256 Aba Da
  let Bba := Aba
  let Age := XOR256 Age De
  let Bbe := ROL64in256 Age 44
  let Aki := XOR256 Aki Di
  let Bbi := ROL64in256 Aki 43
  let Eba := XOR256 Bba (ANDnu256 Bbe Bbi)
  let Eba := XOR256 Eba (CONST256_64 rc)
  let Ca := Eba
  let Amo := XOR256 Amo Do
  let Bbo := ROL64in256 Amo 21
  let Ebe := XOR256 Bbe (ANDnu256 Bbi Bbo)
  let Ce := Ebe
  let Asu := XOR256 Asu Du
  let Bbu := ROL64in256 Asu 14
  let Ebi := XOR256 Bbi (ANDnu256 Bbo Bbu)
  let Ci := Ebi
  let Ebo := XOR256 Bbo (ANDnu256 Bbu Bba)
  let Co := Ebo
  let Ebu := XOR256 Bbu (ANDnu256 Bba Bbe)
  let Cu := Ebu
  let Abo := XOR256 Abo Do
  let Bga := ROL64in256 Abo 28
  let Agu := XOR256 Agu Du
  let Bge := ROL64in256 Agu 20
  let Aka := XOR256 Aka Da
  let Bgi := ROL64in256 Aka 3
  let Ega := XOR256 Bga (ANDnu256 Bge Bgi)
  let Ca := XOR256 Ca Ega
  let Ame := XOR256 Ame De
  let Bgo := ROL64in256 Ame 45
  let Ege := XOR256 Bge (ANDnu256 Bgi Bgo)
  let Ce := XOR256 Ce Ege
  let Asi := XOR256 Asi Di
  let Bgu := ROL64in256 Asi 61
  let Egi := XOR256 Bgi (ANDnu256 Bgo Bgu)
  let Ci := XOR256 Ci Egi
  let Ego := XOR256 Bgo (ANDnu256 Bgu Bga)
  let Co := XOR256 Co Ego
  let Egu := XOR256 Bgu (ANDnu256 Bga Bge)
  let Cu := XOR256 Cu Egu
  let Abe := XOR256 Abe De
  let Bka := ROL64in256 Abe 1
  let Agi := XOR256 Agi Di
  let Bke := ROL64in256 Agi 6
  let Ako := XOR256 Ako Do
  let Bki := ROL64in256 Ako 25
  let Eka := XOR256 Bka (ANDnu256 Bke Bki)
  let Ca := XOR256 Ca Eka
  let Amu := XOR256 Amu Du
  let Bko := ROL64in256_8 Amu
  let Eke := XOR256 Bke (ANDnu256 Bki Bko)
  let Ce := XOR256 Ce Eke
  let Asa := XOR256 Asa Da
  let Bku := ROL64in256 Asa 18
  let Eki := XOR256 Bki (ANDnu256 Bko Bku)
  let Ci := XOR256 Ci Eki
  let Eko := XOR256 Bko (ANDnu256 Bku Bka)
  let Co := XOR256 Co Eko
  let Eku := XOR256 Bku (ANDnu256 Bka Bke)
  let Cu := XOR256 Cu Eku
  let Abu := XOR256 Abu Du
  let Bma := ROL64in256 Abu 27
  let Aga := XOR256 Aga Da
  let Bme := ROL64in256 Aga 36
  let Ake := XOR256 Ake De
  let Bmi := ROL64in256 Ake 10
  let Ema := XOR256 Bma (ANDnu256 Bme Bmi)
  let Ca := XOR256 Ca Ema
  let Ami := XOR256 Ami Di
  let Bmo := ROL64in256 Ami 15
  let Eme := XOR256 Bme (ANDnu256 Bmi Bmo)
  let Ce := XOR256 Ce Eme
  let Aso := XOR256 Aso Do
  let Bmu := ROL64in256_56 Aso
  let Emi := XOR256 Bmi (ANDnu256 Bmo Bmu)
  let Ci := XOR256 Ci Emi
  let Emo := XOR256 Bmo (ANDnu256 Bmu Bma)
  let Co := XOR256 Co Emo
  let Emu := XOR256 Bmu (ANDnu256 Bma Bme)
  let Cu := XOR256 Cu Emu
  let Abi := XOR256 Abi Di
  let Bsa := ROL64in256 Abi 62
  let Ago := XOR256 Ago Do
  let Bse := ROL64in256 Ago 55
  let Aku := XOR256 Aku Du
  let Bsi := ROL64in256 Aku 39
  let Esa := XOR256 Bsa (ANDnu256 Bse Bsi)
  let Ca := XOR256 Ca Esa
  let Ama := XOR256 Ama Da
  let Bso := ROL64in256 Ama 41
  let Ese := XOR256 Bse (ANDnu256 Bsi Bso)
  let Ce := XOR256 Ce Ese
  let Ase := XOR256 Ase De
  let Bsu := ROL64in256 Ase 2
  let Esi := XOR256 Bsi (ANDnu256 Bso Bsu)
  let Ci := XOR256 Ci Esi
  let Eso := XOR256 Bso (ANDnu256 Bsu Bsa)
  let Co := XOR256 Co Eso
  let Esu := XOR256 Bsu (ANDnu256 Bsa Bse)
  let Cu := XOR256 Cu Esu
  (⟨Eba, Ebe, Ebi, Ebo, Ebu, Ega, Ege, Egi, Ego, Egu, Eka, Eke, Eki, Eko, Eku, Ema, Eme, Emi, Emo, Emu, Esa, Ese, Esi, Eso, Esu⟩, ⟨Ca, Ce, Ci, Co, Cu⟩)

/-- `thetaRhoPiChiIota` (keccak4x/KeccakP-1600-times4-SIMD256.c:594-687); `rc` is `KeccakF1600RoundConstants[i]`. -/
def thetaRhoPiChiIota (rc : BitVec 64) (A : Vars) (C : Cols) : Vars :=
  let Aba := A.ba
  let Abe := A.be
  let Abi := A.bi
  let Abo := A.bo
  let Abu := A.bu
  let Aga := A.ga
  let Age := A.ge
  let Agi := A.gi
  let Ago := A.go
  let Agu := A.gu
  let Aka := A.ka
  let Ake := A.ke
  let Aki := A.ki
  let Ako := A.ko
  let Aku := A.ku
  let Ama := A.ma
  let Ame := A.me
  let Ami := A.mi
  let Amo := A.mo
  let Amu := A.mu
  let Asa := A.sa
  let Ase := A.se
  let Asi := A.si
  let Aso := A.so
  let Asu := A.su
  let Ca := C.a
  let Ce := C.e
  let Ci := C.i
  let Co := C.o
  let Cu := C.u
  let Ce1 := ROL64in256 Ce 1
  let Da := XOR256 Cu Ce1
  let Ci1 := ROL64in256 Ci 1
  let De := XOR256 Ca Ci1
  let Co1 := ROL64in256 Co 1
  let Di := XOR256 Ce Co1
  let Cu1 := ROL64in256 Cu 1
  let Do := XOR256 Ci Cu1
  let Ca1 := ROL64in256 Ca 1
  let Du := XOR256 Co Ca1
  let Aba := XOR256 Aba Da
  let Bba := Aba
  let Age := XOR256 Age De
  let Bbe := ROL64in256 Age 44
  let Aki := XOR256 Aki Di
  let Bbi := ROL64in256 Aki 43
  let Eba := XOR256 Bba (ANDnu256 Bbe Bbi)
  let Eba := XOR256 Eba (CONST256_64 rc)
  let Amo := XOR256 Amo Do
  let Bbo := ROL64in256 Amo 21
  let Ebe := XOR256 Bbe (ANDnu256 Bbi Bbo)
  let Asu := XOR256 Asu Du
  let Bbu := ROL64in256 Asu 14
  let Ebi := XOR256 Bbi (ANDnu256 Bbo Bbu)
  let Ebo := XOR256 Bbo (ANDnu256 Bbu Bba)
  let Ebu := XOR256 Bbu (ANDnu256 Bba Bbe)
  let Abo := XOR256 Abo Do
  let Bga := ROL64in256 Abo 28
  let Agu := XOR256 Agu Du
  let Bge := ROL64in256 Agu 20
  let Aka := XOR256 Aka Da
  let Bgi := ROL64in256 Aka 3
  let Ega := XOR256 Bga (ANDnu256 Bge Bgi)
  let Ame := XOR256 Ame De
  let Bgo := ROL64in256 Ame 45
  let Ege := XOR256 Bge (ANDnu256 Bgi Bgo)
  let Asi := XOR256 Asi Di
  let Bgu := ROL64in256 Asi 61
  let Egi := XOR256 Bgi (ANDnu256 Bgo Bgu)
  let Ego := XOR256 Bgo (ANDnu256 Bgu Bga)
  let Egu := XOR256 Bgu (ANDnu256 Bga Bge)
  let Abe := XOR256 Abe De
  let Bka := ROL64in256 Abe 1
  let Agi := XOR256 Agi Di
  let Bke := ROL64in256 Agi 6
  let Ako := XOR256 Ako Do
  let Bki := ROL64in256 Ako 25
  let Eka := XOR256 Bka (ANDnu256 Bke Bki)
  let Amu := XOR256 Amu Du
  let Bko := ROL64in256_8 Amu
  let Eke := XOR256 Bke (ANDnu256 Bki Bko)
  let Asa := XOR256 Asa Da
  let Bku := ROL64in256 Asa 18
  let Eki := XOR256 Bki (ANDnu256 Bko Bku)
  let Eko := XOR256 Bko (ANDnu256 Bku Bka)
  let Eku := XOR256 Bku (ANDnu256 Bka Bke)
  let Abu := XOR256 Abu Du
  let Bma := ROL64in256 Abu 27
  let Aga := XOR256 Aga Da
  let Bme := ROL64in256 Aga 36
  let Ake := XOR256 Ake De
  let Bmi := ROL64in256 Ake 10
  let Ema := XOR256 Bma (ANDnu256 Bme Bmi)
  let Ami := XOR256 Ami Di
  let Bmo := ROL64in256 Ami 15
  let Eme := XOR256 Bme (ANDnu256 Bmi Bmo)
  let Aso := XOR256 Aso Do
  let Bmu := ROL64in256_56 Aso
  let Emi := XOR256 Bmi (ANDnu256 Bmo Bmu)
  let Emo := XOR256 Bmo (ANDnu256 Bmu Bma)
  let Emu := XOR256 Bmu (ANDnu256 Bma Bme)
  let Abi := XOR256 Abi Di
  let Bsa := ROL64in256 Abi 62
  let Ago := XOR256 Ago Do
  let Bse := ROL64in256 Ago 55
  let Aku := XOR256 Aku Du
  let Bsi := ROL64in256 Aku 39
  let Esa := XOR256 Bsa (ANDnu256 Bse Bsi)
  let Ama := XOR256 Ama Da
  let Bso := ROL64in256 Ama 41
  let Ese := XOR256 Bse (ANDnu256 Bsi Bso)
  let Ase := XOR256 Ase De
  let Bsu := ROL64in256 Ase 2
  let Esi := XOR256 Bsi (ANDnu256 Bso Bsu)
  let Eso := XOR256 Bso (ANDnu256 Bsu Bsa)
  let Esu := XOR256 Bsu (ANDnu256 Bsa Bse)
  ⟨Eba, Ebe, Ebi, Ebo, Ebu, Ega, Ege, Egi, Ego, Egu, Eka, Eke, Eki, Eko, Eku, Ema, Eme, Emi, Emo, Emu, Esa, Ese, Esi, Eso, Esu⟩

/-- A call `thetaRhoPiChiIotaPrepareTheta(i, X, Y)` (keccak4x/KeccakP-1600-times4-SIMD256.c:473-591): the variables `X..` and `C.` before, the
variables `Y..` and `C.` after. -/
def roundPrepare (i : Nat) (X : Vars × Cols) : CM (Vars × Cols) := do
  let rc ← rd KeccakF1600RoundConstants i
  pure (thetaRhoPiChiIotaPrepareTheta rc X.1 X.2)

/-- A call `thetaRhoPiChiIota(i, X, Y)` (keccak4x/KeccakP-1600-times4-SIMD256.c:594-687). -/
def roundLast (i : Nat) (X : Vars × Cols) : CM Vars := do
  let rc ← rd KeccakF1600RoundConstants i
  pure (thetaRhoPiChiIota rc X.1 X.2)

/-- `rounds24` (keccak4x/KeccakP-1600-unrolling.macros:17-43, with `FullUnrolling`) -/
def rounds24 (A : Vars) : CM Vars := do
  let A := (A, prepareTheta A)
  let E ← roundPrepare 0 A
  let A ← roundPrepare 1 E
  let E ← roundPrepare 2 A
  let A ← roundPrepare 3 E
  let E ← roundPrepare 4 A
  let A ← roundPrepare 5 E
  let E ← roundPrepare 6 A
  let A ← roundPrepare 7 E
  let E ← roundPrepare 8 A
  let A ← roundPrepare 9 E
  let E ← roundPrepare 10 A
  let A ← roundPrepare 11 E
  let E ← roundPrepare 12 A
  let A ← roundPrepare 13 E
  let E ← roundPrepare 14 A
  let A ← roundPrepare 15 E
  let E ← roundPrepare 16 A
  let A ← roundPrepare 17 E
  let E ← roundPrepare 18 A
  let A ← roundPrepare 19 E
  let E ← roundPrepare 20 A
  let A ← roundPrepare 21 E
  let E ← roundPrepare 22 A
  let A ← roundLast 23 E
  pure A

/-- `KeccakP1600times4_PermuteAll_24rounds` (keccak4x/KeccakP-1600-times4-SIMD256.c:802-813) with `copyFromState` (714-740) and
`copyToState` (741-767) -/
def KeccakP1600times4_PermuteAll_24rounds (states : List V256) : CM (List V256) := do
  let Aba ← rd states 0
  let Abe ← rd states 1
  let Abi ← rd states 2
  let Abo ← rd states 3
  let Abu ← rd states 4
  let Aga ← rd states 5
  let Age ← rd states 6
  let Agi ← rd states 7
  let Ago ← rd states 8
  let Agu ← rd states 9
  let Aka ← rd states 10
  let Ake ← rd states 11
  let Aki ← rd states 12
  let Ako ← rd states 13
  let Aku ← rd states 14
  let Ama ← rd states 15
  let Ame ← rd states 16
  let Ami ← rd states 17
  let Amo ← rd states 18
  let Amu ← rd states 19
  let Asa ← rd states 20
  let Ase ← rd states 21
  let Asi ← rd states 22
  let Aso ← rd states 23
  let Asu ← rd states 24
  let A ← rounds24 ⟨Aba, Abe, Abi, Abo, Abu, Aga, Age, Agi, Ago, Agu, Aka, Ake, Aki, Ako, Aku, Ama, Ame, Ami, Amo, Amu, Asa, Ase, Asi, Aso, Asu⟩
  let states ← wr states 0 A.ba
  let states ← wr states 1 A.be
  let states ← wr states 2 A.bi
  let states ← wr states 3 A.bo
  let states ← wr states 4 A.bu
  let states ← wr states 5 A.ga
  let states ← wr states 6 A.ge
  let states ← wr states 7 A.gi
  let states ← wr states 8 A.go
  let states ← wr states 9 A.gu
  let states ← wr states 10 A.ka
  let states ← wr states 11 A.ke
  let states ← wr states 12 A.ki
  let states ← wr states 13 A.ko
  let states ← wr states 14 A.ku
  let states ← wr states 15 A.ma
  let states ← wr states 16 A.me
  let states ← wr states 17 A.mi
  let states ← wr states 18 A.mo
  let states ← wr states 19 A.mu
  let states ← wr states 20 A.sa
  let states ← wr states 21 A.se
  let states ← wr states 22 A.si
  let states ← wr states 23 A.so
  let states ← wr states 24 A.su
  pure states

end Saber.X4
