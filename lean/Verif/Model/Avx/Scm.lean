import Verif.Model.Avx.Machine
/-!
# `AVX_Implementation_KEM/polymul/scm_avx.c`

Sixteen products of polynomials with 16 coefficients, one in each lane.  The bodies are transcribed by tools/avx2lean.py.
-/
namespace Saber.Avx

/-- `mul_add` (scm_avx.c:6-8) -/
abbrev mul_add (a b c : Ex) : Ex := add (mullo a b) c

namespace Scm
/-! The variables and the arguments of the two functions. -/
abbrev a0 : Ex := .v 0
abbrev a1 : Ex := .v 1
abbrev a2 : Ex := .v 2
abbrev a3 : Ex := .v 3
abbrev a4 : Ex := .v 4
abbrev a5 : Ex := .v 5
abbrev a6 : Ex := .v 6
abbrev a7 : Ex := .v 7
abbrev b0 : Ex := .v 8
abbrev b1 : Ex := .v 9
abbrev b2 : Ex := .v 10
abbrev b3 : Ex := .v 11
abbrev b4 : Ex := .v 12
abbrev b5 : Ex := .v 13
abbrev b6 : Ex := .v 14
abbrev b7 : Ex := .v 15
abbrev temp : Ex := .v 16
abbrev a : Nat → Ex := .ix 0
abbrev b : Nat → Ex := .ix 1
abbrev c_avx : Nat → Ex := .ix 2

/-- The body of `schoolbook_avx_new3_acc` (scm_avx.c:11-409). -/
def acc : List Stmt :=
  [ a0 ≔ a 0, a1 ≔ a 1, a2 ≔ a 2, a3 ≔ a 3, a4 ≔ a 4, a5 ≔ a 5, a6 ≔ a 6, a7 ≔ a 7, b0 ≔ b 0, b1 ≔ b 1, b2 ≔ b 2, b3 ≔ b 3, b4 ≔ b 4,
    b5 ≔ b 5, b6 ≔ b 6, b7 ≔ b 7, c_avx 0 ≔ mul_add a0 b0 (c_avx 0), temp ≔ mullo a0 b1, temp ≔ mul_add a1 b0 temp,
    c_avx 1 ≔ add temp (c_avx 1), temp ≔ mullo a0 b2, temp ≔ mul_add a1 b1 temp, temp ≔ mul_add a2 b0 temp, c_avx 2 ≔ add temp (c_avx 2),
    temp ≔ mullo a0 b3, temp ≔ mul_add a1 b2 temp, temp ≔ mul_add a2 b1 temp, temp ≔ mul_add a3 b0 temp, c_avx 3 ≔ add temp (c_avx 3),
    temp ≔ mullo a0 b4, temp ≔ mul_add a1 b3 temp, temp ≔ mul_add a3 b1 temp, temp ≔ mul_add a4 b0 temp, temp ≔ mul_add a2 b2 temp,
    c_avx 4 ≔ add temp (c_avx 4), temp ≔ mullo a0 b5, temp ≔ mul_add a1 b4 temp, temp ≔ mul_add a2 b3 temp, temp ≔ mul_add a3 b2 temp,
    temp ≔ mul_add a4 b1 temp, temp ≔ mul_add a5 b0 temp, c_avx 5 ≔ add temp (c_avx 5), temp ≔ mullo a0 b6, temp ≔ mul_add a1 b5 temp,
    temp ≔ mul_add a5 b1 temp, temp ≔ mul_add a6 b0 temp, temp ≔ mul_add a2 b4 temp, temp ≔ mul_add a3 b3 temp, temp ≔ mul_add a4 b2 temp,
    c_avx 6 ≔ add temp (c_avx 6), temp ≔ mullo a0 b7, temp ≔ mul_add a1 b6 temp, temp ≔ mul_add a6 b1 temp, temp ≔ mul_add a7 b0 temp,
    temp ≔ mul_add a2 b5 temp, temp ≔ mul_add a3 b4 temp, temp ≔ mul_add a4 b3 temp, temp ≔ mul_add a5 b2 temp, c_avx 7 ≔ add temp (c_avx 7),
    temp ≔ mullo a0 (b 8), temp ≔ mul_add a1 b7 temp, temp ≔ mul_add a7 b1 temp, temp ≔ mul_add (a 8) b0 temp, temp ≔ mul_add a2 b6 temp,
    temp ≔ mul_add a3 b5 temp, temp ≔ mul_add a4 b4 temp, temp ≔ mul_add a5 b3 temp, temp ≔ mul_add a6 b2 temp, c_avx 8 ≔ add temp (c_avx 8),
    temp ≔ mullo a0 (b 9), temp ≔ mul_add a1 (b 8) temp, temp ≔ mul_add (a 8) b1 temp, temp ≔ mul_add (a 9) b0 temp,
    temp ≔ mul_add a2 b7 temp, temp ≔ mul_add a3 b6 temp, temp ≔ mul_add a4 b5 temp, temp ≔ mul_add a5 b4 temp, temp ≔ mul_add a6 b3 temp,
    temp ≔ mul_add a7 b2 temp, c_avx 9 ≔ add temp (c_avx 9), temp ≔ mullo a0 (b 10), temp ≔ mul_add a1 (b 9) temp,
    temp ≔ mul_add (a 9) b1 temp, temp ≔ mul_add (a 10) b0 temp, temp ≔ mul_add a2 (b 8) temp, temp ≔ mul_add a3 b7 temp,
    temp ≔ mul_add a4 b6 temp, temp ≔ mul_add a5 b5 temp, temp ≔ mul_add a6 b4 temp, temp ≔ mul_add a7 b3 temp, temp ≔ mul_add (a 8) b2 temp,
    c_avx 10 ≔ add temp (c_avx 10), temp ≔ mullo a0 (b 11), temp ≔ mul_add a1 (b 10) temp, temp ≔ mul_add (a 10) b1 temp,
    temp ≔ mul_add (a 11) b0 temp, temp ≔ mul_add a2 (b 9) temp, temp ≔ mul_add a3 (b 8) temp, temp ≔ mul_add a4 b7 temp,
    temp ≔ mul_add a5 b6 temp, temp ≔ mul_add a6 b5 temp, temp ≔ mul_add a7 b4 temp, temp ≔ mul_add (a 8) b3 temp,
    temp ≔ mul_add (a 9) b2 temp, c_avx 11 ≔ add temp (c_avx 11), temp ≔ mullo a0 (b 12), temp ≔ mul_add a1 (b 11) temp,
    temp ≔ mul_add (a 11) b1 temp, temp ≔ mul_add (a 12) b0 temp, temp ≔ mul_add a2 (b 10) temp, temp ≔ mul_add a3 (b 9) temp,
    temp ≔ mul_add a4 (b 8) temp, temp ≔ mul_add a5 b7 temp, temp ≔ mul_add a6 b6 temp, temp ≔ mul_add a7 b5 temp,
    temp ≔ mul_add (a 8) b4 temp, temp ≔ mul_add (a 9) b3 temp, temp ≔ mul_add (a 10) b2 temp, c_avx 12 ≔ add temp (c_avx 12),
    temp ≔ mullo a0 (b 13), temp ≔ mul_add a1 (b 12) temp, temp ≔ mul_add (a 12) b1 temp, temp ≔ mul_add (a 13) b0 temp,
    temp ≔ mul_add a2 (b 11) temp, temp ≔ mul_add a3 (b 10) temp, temp ≔ mul_add a4 (b 9) temp, temp ≔ mul_add a5 (b 8) temp,
    temp ≔ mul_add a6 b7 temp, temp ≔ mul_add a7 b6 temp, temp ≔ mul_add (a 8) b5 temp, temp ≔ mul_add (a 9) b4 temp,
    temp ≔ mul_add (a 10) b3 temp, temp ≔ mul_add (a 11) b2 temp, c_avx 13 ≔ add temp (c_avx 13), temp ≔ mullo a0 (b 14),
    temp ≔ mul_add a1 (b 13) temp, temp ≔ mul_add (a 13) b1 temp, temp ≔ mul_add (a 14) b0 temp, temp ≔ mul_add a2 (b 12) temp,
    temp ≔ mul_add a3 (b 11) temp, temp ≔ mul_add a4 (b 10) temp, temp ≔ mul_add a5 (b 9) temp, temp ≔ mul_add a6 (b 8) temp,
    temp ≔ mul_add a7 b7 temp, temp ≔ mul_add (a 8) b6 temp, temp ≔ mul_add (a 9) b5 temp, temp ≔ mul_add (a 10) b4 temp,
    temp ≔ mul_add (a 11) b3 temp, temp ≔ mul_add (a 12) b2 temp, c_avx 14 ≔ add temp (c_avx 14), temp ≔ mullo a0 (b 15),
    temp ≔ mul_add a1 (b 14) temp, temp ≔ mul_add (a 14) b1 temp, temp ≔ mul_add (a 15) b0 temp, temp ≔ mul_add a2 (b 13) temp,
    temp ≔ mul_add a3 (b 12) temp, temp ≔ mul_add a4 (b 11) temp, temp ≔ mul_add a5 (b 10) temp, temp ≔ mul_add a6 (b 9) temp,
    temp ≔ mul_add a7 (b 8) temp, temp ≔ mul_add (a 8) b7 temp, temp ≔ mul_add (a 9) b6 temp, temp ≔ mul_add (a 10) b5 temp,
    temp ≔ mul_add (a 11) b4 temp, temp ≔ mul_add (a 12) b3 temp, temp ≔ mul_add (a 13) b2 temp, c_avx 15 ≔ add temp (c_avx 15), a0 ≔ a 14,
    a1 ≔ a 15, a2 ≔ a 13, a3 ≔ a 12, a4 ≔ a 11, a5 ≔ a 10, a6 ≔ a 9, a7 ≔ a 8, b0 ≔ b 14, b1 ≔ b 15, b2 ≔ b 13, b3 ≔ b 12, b4 ≔ b 11,
    b5 ≔ b 10, b6 ≔ b 9, b7 ≔ b 8, temp ≔ mullo (a 1) b1, temp ≔ mul_add (a 2) b0 temp, temp ≔ mul_add (a 3) b2 temp,
    temp ≔ mul_add (a 4) b3 temp, temp ≔ mul_add (a 5) b4 temp, temp ≔ mul_add (a 6) b5 temp, temp ≔ mul_add (a 7) b6 temp,
    temp ≔ mul_add a7 b7 temp, temp ≔ mul_add a6 (b 7) temp, temp ≔ mul_add a5 (b 6) temp, temp ≔ mul_add a4 (b 5) temp,
    temp ≔ mul_add a3 (b 4) temp, temp ≔ mul_add a2 (b 3) temp, temp ≔ mul_add a0 (b 2) temp, temp ≔ mul_add a1 (b 1) temp,
    c_avx 16 ≔ add temp (c_avx 16), temp ≔ mullo (a 2) b1, temp ≔ mul_add (a 3) b0 temp, temp ≔ mul_add (a 4) b2 temp,
    temp ≔ mul_add (a 5) b3 temp, temp ≔ mul_add (a 6) b4 temp, temp ≔ mul_add (a 7) b5 temp, temp ≔ mul_add a7 b6 temp,
    temp ≔ mul_add a6 b7 temp, temp ≔ mul_add a5 (b 7) temp, temp ≔ mul_add a4 (b 6) temp, temp ≔ mul_add a3 (b 5) temp,
    temp ≔ mul_add a2 (b 4) temp, temp ≔ mul_add a0 (b 3) temp, temp ≔ mul_add a1 (b 2) temp, c_avx 17 ≔ add temp (c_avx 17),
    temp ≔ mullo (a 3) b1, temp ≔ mul_add (a 4) b0 temp, temp ≔ mul_add (a 5) b2 temp, temp ≔ mul_add (a 6) b3 temp,
    temp ≔ mul_add (a 7) b4 temp, temp ≔ mul_add a7 b5 temp, temp ≔ mul_add a6 b6 temp, temp ≔ mul_add a5 b7 temp,
    temp ≔ mul_add a4 (b 7) temp, temp ≔ mul_add a3 (b 6) temp, temp ≔ mul_add a2 (b 5) temp, temp ≔ mul_add a0 (b 4) temp,
    temp ≔ mul_add a1 (b 3) temp, c_avx 18 ≔ add temp (c_avx 18), temp ≔ mullo (a 4) b1, temp ≔ mul_add (a 5) b0 temp,
    temp ≔ mul_add (a 6) b2 temp, temp ≔ mul_add (a 7) b3 temp, temp ≔ mul_add a7 b4 temp, temp ≔ mul_add a6 b5 temp,
    temp ≔ mul_add a5 b6 temp, temp ≔ mul_add a4 b7 temp, temp ≔ mul_add a3 (b 7) temp, temp ≔ mul_add a2 (b 6) temp,
    temp ≔ mul_add a0 (b 5) temp, temp ≔ mul_add a1 (b 4) temp, c_avx 19 ≔ add temp (c_avx 19), temp ≔ mullo (a 5) b1,
    temp ≔ mul_add (a 6) b0 temp, temp ≔ mul_add (a 7) b2 temp, temp ≔ mul_add a7 b3 temp, temp ≔ mul_add a6 b4 temp,
    temp ≔ mul_add a5 b5 temp, temp ≔ mul_add a4 b6 temp, temp ≔ mul_add a3 b7 temp, temp ≔ mul_add a2 (b 7) temp,
    temp ≔ mul_add a0 (b 6) temp, temp ≔ mul_add a1 (b 5) temp, c_avx 20 ≔ add temp (c_avx 20), temp ≔ mullo (a 6) b1,
    temp ≔ mul_add (a 7) b0 temp, temp ≔ mul_add a7 b2 temp, temp ≔ mul_add a6 b3 temp, temp ≔ mul_add a5 b4 temp, temp ≔ mul_add a4 b5 temp,
    temp ≔ mul_add a3 b6 temp, temp ≔ mul_add a2 b7 temp, temp ≔ mul_add a0 (b 7) temp, temp ≔ mul_add a1 (b 6) temp,
    c_avx 21 ≔ add temp (c_avx 21), temp ≔ mullo (a 7) b1, temp ≔ mul_add a7 b0 temp, temp ≔ mul_add a6 b2 temp, temp ≔ mul_add a5 b3 temp,
    temp ≔ mul_add a4 b4 temp, temp ≔ mul_add a3 b5 temp, temp ≔ mul_add a2 b6 temp, temp ≔ mul_add a0 b7 temp, temp ≔ mul_add a1 (b 7) temp,
    c_avx 22 ≔ add temp (c_avx 22), temp ≔ mullo a7 b1, temp ≔ mul_add a6 b0 temp, temp ≔ mul_add a5 b2 temp, temp ≔ mul_add a4 b3 temp,
    temp ≔ mul_add a3 b4 temp, temp ≔ mul_add a2 b5 temp, temp ≔ mul_add a0 b6 temp, temp ≔ mul_add a1 b7 temp,
    c_avx 23 ≔ add temp (c_avx 23), temp ≔ mullo a6 b1, temp ≔ mul_add a5 b0 temp, temp ≔ mul_add a4 b2 temp, temp ≔ mul_add a3 b3 temp,
    temp ≔ mul_add a2 b4 temp, temp ≔ mul_add a0 b5 temp, temp ≔ mul_add a1 b6 temp, c_avx 24 ≔ add temp (c_avx 24), temp ≔ mullo a5 b1,
    temp ≔ mul_add a4 b0 temp, temp ≔ mul_add a3 b2 temp, temp ≔ mul_add a2 b3 temp, temp ≔ mul_add a0 b4 temp, temp ≔ mul_add a1 b5 temp,
    c_avx 25 ≔ add temp (c_avx 25), temp ≔ mullo a4 b1, temp ≔ mul_add a3 b0 temp, temp ≔ mul_add a2 b2 temp, temp ≔ mul_add a0 b3 temp,
    temp ≔ mul_add a1 b4 temp, c_avx 26 ≔ add temp (c_avx 26), temp ≔ mullo a3 b1, temp ≔ mul_add a2 b0 temp, temp ≔ mul_add a0 b2 temp,
    temp ≔ mul_add a1 b3 temp, c_avx 27 ≔ add temp (c_avx 27), temp ≔ mullo a2 b1, temp ≔ mul_add a0 b0 temp, temp ≔ mul_add a1 b2 temp,
    c_avx 28 ≔ add temp (c_avx 28), temp ≔ mullo a0 b1, temp ≔ mul_add a1 b0 temp, c_avx 29 ≔ add temp (c_avx 29),
    c_avx 30 ≔ mul_add a1 b1 (c_avx 30), c_avx 31 ≔ .set1 0 ]

/-- The body of `schoolbook_avx_new2` (scm_avx.c:413-752). -/
def new2 : List Stmt :=
  [ a0 ≔ a 0, a1 ≔ a 1, a2 ≔ a 2, a3 ≔ a 3, a4 ≔ a 4, a5 ≔ a 5, a6 ≔ a 6, a7 ≔ a 7, b0 ≔ b 0, b1 ≔ b 1, b2 ≔ b 2, b3 ≔ b 3, b4 ≔ b 4,
    b5 ≔ b 5, b6 ≔ b 6, b7 ≔ b 7, c_avx 0 ≔ mullo a0 b0, temp ≔ mullo a0 b1, c_avx 1 ≔ mul_add a1 b0 temp, temp ≔ mullo a0 b2,
    temp ≔ mul_add a1 b1 temp, c_avx 2 ≔ mul_add a2 b0 temp, temp ≔ mullo a0 b3, temp ≔ mul_add a1 b2 temp, temp ≔ mul_add a2 b1 temp,
    c_avx 3 ≔ mul_add a3 b0 temp, temp ≔ mullo a0 b4, temp ≔ mul_add a1 b3 temp, temp ≔ mul_add a3 b1 temp, temp ≔ mul_add a4 b0 temp,
    c_avx 4 ≔ mul_add a2 b2 temp, temp ≔ mullo a0 b5, temp ≔ mul_add a1 b4 temp, temp ≔ mul_add a2 b3 temp, temp ≔ mul_add a3 b2 temp,
    temp ≔ mul_add a4 b1 temp, c_avx 5 ≔ mul_add a5 b0 temp, temp ≔ mullo a0 b6, temp ≔ mul_add a1 b5 temp, temp ≔ mul_add a5 b1 temp,
    temp ≔ mul_add a6 b0 temp, temp ≔ mul_add a2 b4 temp, temp ≔ mul_add a3 b3 temp, c_avx 6 ≔ mul_add a4 b2 temp, temp ≔ mullo a0 b7,
    temp ≔ mul_add a1 b6 temp, temp ≔ mul_add a6 b1 temp, temp ≔ mul_add a7 b0 temp, temp ≔ mul_add a2 b5 temp, temp ≔ mul_add a3 b4 temp,
    temp ≔ mul_add a4 b3 temp, c_avx 7 ≔ mul_add a5 b2 temp, temp ≔ mullo a0 (b 8), temp ≔ mul_add a1 b7 temp, temp ≔ mul_add a7 b1 temp,
    temp ≔ mul_add (a 8) b0 temp, temp ≔ mul_add a2 b6 temp, temp ≔ mul_add a3 b5 temp, temp ≔ mul_add a4 b4 temp, temp ≔ mul_add a5 b3 temp,
    c_avx 8 ≔ mul_add a6 b2 temp, temp ≔ mullo a0 (b 9), temp ≔ mul_add a1 (b 8) temp, temp ≔ mul_add (a 8) b1 temp,
    temp ≔ mul_add (a 9) b0 temp, temp ≔ mul_add a2 b7 temp, temp ≔ mul_add a3 b6 temp, temp ≔ mul_add a4 b5 temp, temp ≔ mul_add a5 b4 temp,
    temp ≔ mul_add a6 b3 temp, c_avx 9 ≔ mul_add a7 b2 temp, temp ≔ mullo a0 (b 10), temp ≔ mul_add a1 (b 9) temp,
    temp ≔ mul_add (a 9) b1 temp, temp ≔ mul_add (a 10) b0 temp, temp ≔ mul_add a2 (b 8) temp, temp ≔ mul_add a3 b7 temp,
    temp ≔ mul_add a4 b6 temp, temp ≔ mul_add a5 b5 temp, temp ≔ mul_add a6 b4 temp, temp ≔ mul_add a7 b3 temp,
    c_avx 10 ≔ mul_add (a 8) b2 temp, temp ≔ mullo a0 (b 11), temp ≔ mul_add a1 (b 10) temp, temp ≔ mul_add (a 10) b1 temp,
    temp ≔ mul_add (a 11) b0 temp, temp ≔ mul_add a2 (b 9) temp, temp ≔ mul_add a3 (b 8) temp, temp ≔ mul_add a4 b7 temp,
    temp ≔ mul_add a5 b6 temp, temp ≔ mul_add a6 b5 temp, temp ≔ mul_add a7 b4 temp, temp ≔ mul_add (a 8) b3 temp,
    c_avx 11 ≔ mul_add (a 9) b2 temp, temp ≔ mullo a0 (b 12), temp ≔ mul_add a1 (b 11) temp, temp ≔ mul_add (a 11) b1 temp,
    temp ≔ mul_add (a 12) b0 temp, temp ≔ mul_add a2 (b 10) temp, temp ≔ mul_add a3 (b 9) temp, temp ≔ mul_add a4 (b 8) temp,
    temp ≔ mul_add a5 b7 temp, temp ≔ mul_add a6 b6 temp, temp ≔ mul_add a7 b5 temp, temp ≔ mul_add (a 8) b4 temp,
    temp ≔ mul_add (a 9) b3 temp, c_avx 12 ≔ mul_add (a 10) b2 temp, temp ≔ mullo a0 (b 13), temp ≔ mul_add a1 (b 12) temp,
    temp ≔ mul_add (a 12) b1 temp, temp ≔ mul_add (a 13) b0 temp, temp ≔ mul_add a2 (b 11) temp, temp ≔ mul_add a3 (b 10) temp,
    temp ≔ mul_add a4 (b 9) temp, temp ≔ mul_add a5 (b 8) temp, temp ≔ mul_add a6 b7 temp, temp ≔ mul_add a7 b6 temp,
    temp ≔ mul_add (a 8) b5 temp, temp ≔ mul_add (a 9) b4 temp, temp ≔ mul_add (a 10) b3 temp, c_avx 13 ≔ mul_add (a 11) b2 temp,
    temp ≔ mullo a0 (b 14), temp ≔ mul_add a1 (b 13) temp, temp ≔ mul_add (a 13) b1 temp, temp ≔ mul_add (a 14) b0 temp,
    temp ≔ mul_add a2 (b 12) temp, temp ≔ mul_add a3 (b 11) temp, temp ≔ mul_add a4 (b 10) temp, temp ≔ mul_add a5 (b 9) temp,
    temp ≔ mul_add a6 (b 8) temp, temp ≔ mul_add a7 b7 temp, temp ≔ mul_add (a 8) b6 temp, temp ≔ mul_add (a 9) b5 temp,
    temp ≔ mul_add (a 10) b4 temp, temp ≔ mul_add (a 11) b3 temp, c_avx 14 ≔ mul_add (a 12) b2 temp, temp ≔ mullo a0 (b 15),
    temp ≔ mul_add a1 (b 14) temp, temp ≔ mul_add (a 14) b1 temp, temp ≔ mul_add (a 15) b0 temp, temp ≔ mul_add a2 (b 13) temp,
    temp ≔ mul_add a3 (b 12) temp, temp ≔ mul_add a4 (b 11) temp, temp ≔ mul_add a5 (b 10) temp, temp ≔ mul_add a6 (b 9) temp,
    temp ≔ mul_add a7 (b 8) temp, temp ≔ mul_add (a 8) b7 temp, temp ≔ mul_add (a 9) b6 temp, temp ≔ mul_add (a 10) b5 temp,
    temp ≔ mul_add (a 11) b4 temp, temp ≔ mul_add (a 12) b3 temp, c_avx 15 ≔ mul_add (a 13) b2 temp, a0 ≔ a 14, a1 ≔ a 15, a2 ≔ a 13,
    a3 ≔ a 12, a4 ≔ a 11, a5 ≔ a 10, a6 ≔ a 9, a7 ≔ a 8, b0 ≔ b 14, b1 ≔ b 15, b2 ≔ b 13, b3 ≔ b 12, b4 ≔ b 11, b5 ≔ b 10, b6 ≔ b 9, b7 ≔ b 8,
    temp ≔ mullo (a 1) b1, temp ≔ mul_add (a 2) b0 temp, temp ≔ mul_add (a 3) b2 temp, temp ≔ mul_add (a 4) b3 temp,
    temp ≔ mul_add (a 5) b4 temp, temp ≔ mul_add (a 6) b5 temp, temp ≔ mul_add (a 7) b6 temp, temp ≔ mul_add a7 b7 temp,
    temp ≔ mul_add a6 (b 7) temp, temp ≔ mul_add a5 (b 6) temp, temp ≔ mul_add a4 (b 5) temp, temp ≔ mul_add a3 (b 4) temp,
    temp ≔ mul_add a2 (b 3) temp, temp ≔ mul_add a0 (b 2) temp, c_avx 16 ≔ mul_add a1 (b 1) temp, temp ≔ mullo (a 2) b1,
    temp ≔ mul_add (a 3) b0 temp, temp ≔ mul_add (a 4) b2 temp, temp ≔ mul_add (a 5) b3 temp, temp ≔ mul_add (a 6) b4 temp,
    temp ≔ mul_add (a 7) b5 temp, temp ≔ mul_add a7 b6 temp, temp ≔ mul_add a6 b7 temp, temp ≔ mul_add a5 (b 7) temp,
    temp ≔ mul_add a4 (b 6) temp, temp ≔ mul_add a3 (b 5) temp, temp ≔ mul_add a2 (b 4) temp, temp ≔ mul_add a0 (b 3) temp,
    c_avx 17 ≔ mul_add a1 (b 2) temp, temp ≔ mullo (a 3) b1, temp ≔ mul_add (a 4) b0 temp, temp ≔ mul_add (a 5) b2 temp,
    temp ≔ mul_add (a 6) b3 temp, temp ≔ mul_add (a 7) b4 temp, temp ≔ mul_add a7 b5 temp, temp ≔ mul_add a6 b6 temp,
    temp ≔ mul_add a5 b7 temp, temp ≔ mul_add a4 (b 7) temp, temp ≔ mul_add a3 (b 6) temp, temp ≔ mul_add a2 (b 5) temp,
    temp ≔ mul_add a0 (b 4) temp, c_avx 18 ≔ mul_add a1 (b 3) temp, temp ≔ mullo (a 4) b1, temp ≔ mul_add (a 5) b0 temp,
    temp ≔ mul_add (a 6) b2 temp, temp ≔ mul_add (a 7) b3 temp, temp ≔ mul_add a7 b4 temp, temp ≔ mul_add a6 b5 temp,
    temp ≔ mul_add a5 b6 temp, temp ≔ mul_add a4 b7 temp, temp ≔ mul_add a3 (b 7) temp, temp ≔ mul_add a2 (b 6) temp,
    temp ≔ mul_add a0 (b 5) temp, c_avx 19 ≔ mul_add a1 (b 4) temp, temp ≔ mullo (a 5) b1, temp ≔ mul_add (a 6) b0 temp,
    temp ≔ mul_add (a 7) b2 temp, temp ≔ mul_add a7 b3 temp, temp ≔ mul_add a6 b4 temp, temp ≔ mul_add a5 b5 temp, temp ≔ mul_add a4 b6 temp,
    temp ≔ mul_add a3 b7 temp, temp ≔ mul_add a2 (b 7) temp, temp ≔ mul_add a0 (b 6) temp, c_avx 20 ≔ mul_add a1 (b 5) temp,
    temp ≔ mullo (a 6) b1, temp ≔ mul_add (a 7) b0 temp, temp ≔ mul_add a7 b2 temp, temp ≔ mul_add a6 b3 temp, temp ≔ mul_add a5 b4 temp,
    temp ≔ mul_add a4 b5 temp, temp ≔ mul_add a3 b6 temp, temp ≔ mul_add a2 b7 temp, temp ≔ mul_add a0 (b 7) temp,
    c_avx 21 ≔ mul_add a1 (b 6) temp, temp ≔ mullo (a 7) b1, temp ≔ mul_add a7 b0 temp, temp ≔ mul_add a6 b2 temp, temp ≔ mul_add a5 b3 temp,
    temp ≔ mul_add a4 b4 temp, temp ≔ mul_add a3 b5 temp, temp ≔ mul_add a2 b6 temp, temp ≔ mul_add a0 b7 temp,
    c_avx 22 ≔ mul_add a1 (b 7) temp, temp ≔ mullo a7 b1, temp ≔ mul_add a6 b0 temp, temp ≔ mul_add a5 b2 temp, temp ≔ mul_add a4 b3 temp,
    temp ≔ mul_add a3 b4 temp, temp ≔ mul_add a2 b5 temp, temp ≔ mul_add a0 b6 temp, c_avx 23 ≔ mul_add a1 b7 temp, temp ≔ mullo a6 b1,
    temp ≔ mul_add a5 b0 temp, temp ≔ mul_add a4 b2 temp, temp ≔ mul_add a3 b3 temp, temp ≔ mul_add a2 b4 temp, temp ≔ mul_add a0 b5 temp,
    c_avx 24 ≔ mul_add a1 b6 temp, temp ≔ mullo a5 b1, temp ≔ mul_add a4 b0 temp, temp ≔ mul_add a3 b2 temp, temp ≔ mul_add a2 b3 temp,
    temp ≔ mul_add a0 b4 temp, c_avx 25 ≔ mul_add a1 b5 temp, temp ≔ mullo a4 b1, temp ≔ mul_add a3 b0 temp, temp ≔ mul_add a2 b2 temp,
    temp ≔ mul_add a0 b3 temp, c_avx 26 ≔ mul_add a1 b4 temp, temp ≔ mullo a3 b1, temp ≔ mul_add a2 b0 temp, temp ≔ mul_add a0 b2 temp,
    c_avx 27 ≔ mul_add a1 b3 temp, temp ≔ mullo a2 b1, temp ≔ mul_add a0 b0 temp, c_avx 28 ≔ mul_add a1 b2 temp, temp ≔ mullo a0 b1,
    c_avx 29 ≔ mul_add a1 b0 temp, c_avx 30 ≔ mullo a1 b1, c_avx 31 ≔ .set1 0 ]
end Scm

/-- `schoolbook_avx_new3_acc` (scm_avx.c:11-409); the new content of `c_avx` is returned. -/
def schoolbook_avx_new3_acc (a b c_avx : List Vec) : CM (List Vec) := do
  let r ← run 17 [a, b, c_avx] Scm.acc
  rd r 2

/-- `schoolbook_avx_new2` (scm_avx.c:413-752); the new content of `c_avx` is returned. -/
def schoolbook_avx_new2 (a b c_avx : List Vec) : CM (List Vec) := do
  let r ← run 17 [a, b, c_avx] Scm.new2
  rd r 2

end Saber.Avx
