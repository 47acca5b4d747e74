import Verif.Model.Params
/-!
# `Variants/uSaber-90s/ref/SABER_params.h`
-/
namespace Saber.U

/-- A build configuration: rank (SABER_params.h:5-7), `uSaber` (SABER_params.h:10), `Saber90s` (SABER_params.h:13).  `SABER_MU`, `SABER_ET`
(SABER_params.h:16-25) and the constants of lines 35-41 are those of the reference implementation. -/
structure Cfg where
  /-- `SABER_L` -/
  P : PSet
  /-- `uSaber` is defined -/
  u : Bool
  /-- `Saber90s` is defined -/
  s90 : Bool
  deriving DecidableEq, Repr

namespace Cfg
/-- `SABER_EQ` (SABER_params.h:28,31) -/
def EQ (c : Cfg) : Nat := if c.u then 12 else 13
/-- `SABER_POLYCOINBYTES` (SABER_params.h:29,32) -/
def POLYCOINBYTES (c : Cfg) : Nat := if c.u then 2 * N / 8 else c.P.MU * N / 8
/-- `SABER_POLYBYTES` (SABER_params.h:43) -/
def POLYBYTES (c : Cfg) : Nat := c.EQ * N / 8
/-- `SABER_POLYVECBYTES` (SABER_params.h:44) -/
def POLYVECBYTES (c : Cfg) : Nat := c.P.L * c.POLYBYTES
/-- `SABER_POLYVECCOMPRESSEDBYTES` (SABER_params.h:47) -/
def POLYVECCOMPRESSEDBYTES (c : Cfg) : Nat := c.P.L * POLYCOMPRESSEDBYTES
/-- `SABER_SCALEBYTES_KEM` (SABER_params.h:49) -/
def SCALEBYTES_KEM (c : Cfg) : Nat := c.P.ET * N / 8
/-- `SABER_INDCPA_PUBLICKEYBYTES` (SABER_params.h:51) -/
def INDCPA_PUBLICKEYBYTES (c : Cfg) : Nat := c.POLYVECCOMPRESSEDBYTES + SEEDBYTES
/-- `SABER_INDCPA_SECRETKEYBYTES` (SABER_params.h:52) -/
def INDCPA_SECRETKEYBYTES (c : Cfg) : Nat := c.POLYVECBYTES
/-- `SABER_PUBLICKEYBYTES` (SABER_params.h:54) -/
def PUBLICKEYBYTES (c : Cfg) : Nat := c.INDCPA_PUBLICKEYBYTES
/-- `SABER_SECRETKEYBYTES` (SABER_params.h:55) -/
def SECRETKEYBYTES (c : Cfg) : Nat := c.INDCPA_SECRETKEYBYTES + c.INDCPA_PUBLICKEYBYTES + HASHBYTES + KEYBYTES
/-- `SABER_BYTES_CCA_DEC` (SABER_params.h:57) -/
def BYTES_CCA_DEC (c : Cfg) : Nat := c.POLYVECCOMPRESSEDBYTES + c.SCALEBYTES_KEM
end Cfg

end Saber.U
