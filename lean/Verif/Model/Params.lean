import Verif.CSem
/-!
# `Reference_Implementation_KEM/SABER_params.h`
-/
namespace Saber

/-- The three legal values of `SABER_L` (SABER_params.h:4-7). -/
inductive PSet where
  /-- LightSaber, `SABER_L == 2` -/
  | light
  /-- Saber, `SABER_L == 3` -/
  | saber
  /-- FireSaber, `SABER_L == 4` -/
  | fire
  deriving DecidableEq, Repr

namespace PSet
/-- `SABER_L` (SABER_params.h:4-7) -/
def L : PSet → Nat | light => 2 | saber => 3 | fire => 4
/-- `SABER_MU` (SABER_params.h:10-19) -/
def MU : PSet → Nat | light => 10 | saber => 8 | fire => 6
/-- `SABER_ET` (SABER_params.h:10-19) -/
def ET : PSet → Nat | light => 3 | saber => 4 | fire => 6
end PSet

/-- `SABER_EQ` (SABER_params.h:21) -/
abbrev EQ : Nat := 13
/-- `SABER_EP` (SABER_params.h:22) -/
abbrev EP : Nat := 10
/-- `SABER_N` (SABER_params.h:23) -/
abbrev N : Nat := 256
/-- `SABER_SEEDBYTES` (SABER_params.h:25) -/
abbrev SEEDBYTES : Nat := 32
/-- `SABER_NOISE_SEEDBYTES` (SABER_params.h:26) -/
abbrev NOISE_SEEDBYTES : Nat := 32
/-- `SABER_KEYBYTES` (SABER_params.h:27) -/
abbrev KEYBYTES : Nat := 32
/-- `SABER_HASHBYTES` (SABER_params.h:28) -/
abbrev HASHBYTES : Nat := 32
/-- `SABER_POLYBYTES` (SABER_params.h:32) -/
abbrev POLYBYTES : Nat := EQ * N / 8
/-- `SABER_POLYCOMPRESSEDBYTES` (SABER_params.h:35) -/
abbrev POLYCOMPRESSEDBYTES : Nat := EP * N / 8

namespace PSet
/-- `SABER_POLYCOINBYTES` (SABER_params.h:30) -/
def POLYCOINBYTES (P : PSet) : Nat := P.MU * N / 8
/-- `SABER_POLYVECBYTES` (SABER_params.h:33) -/
def POLYVECBYTES (P : PSet) : Nat := P.L * POLYBYTES
/-- `SABER_POLYVECCOMPRESSEDBYTES` (SABER_params.h:36) -/
def POLYVECCOMPRESSEDBYTES (P : PSet) : Nat := P.L * POLYCOMPRESSEDBYTES
/-- `SABER_SCALEBYTES_KEM` (SABER_params.h:38) -/
def SCALEBYTES_KEM (P : PSet) : Nat := P.ET * N / 8
/-- `SABER_INDCPA_PUBLICKEYBYTES` (SABER_params.h:40) -/
def INDCPA_PUBLICKEYBYTES (P : PSet) : Nat := P.POLYVECCOMPRESSEDBYTES + SEEDBYTES
/-- `SABER_INDCPA_SECRETKEYBYTES` (SABER_params.h:41) -/
def INDCPA_SECRETKEYBYTES (P : PSet) : Nat := P.POLYVECBYTES
/-- `SABER_PUBLICKEYBYTES` (SABER_params.h:43) -/
def PUBLICKEYBYTES (P : PSet) : Nat := P.INDCPA_PUBLICKEYBYTES
/-- `SABER_SECRETKEYBYTES` (SABER_params.h:44) -/
def SECRETKEYBYTES (P : PSet) : Nat :=
  P.INDCPA_SECRETKEYBYTES + P.INDCPA_PUBLICKEYBYTES + HASHBYTES + KEYBYTES
/-- `SABER_BYTES_CCA_DEC` (SABER_params.h:46) -/
def BYTES_CCA_DEC (P : PSet) : Nat := P.POLYVECCOMPRESSEDBYTES + P.SCALEBYTES_KEM
end PSet

end Saber
