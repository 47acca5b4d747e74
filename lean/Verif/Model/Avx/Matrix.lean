import Verif.Model.Avx.Machine
/-!
# `AVX_Implementation_KEM/polymul/matrix.c`

The body is transcribed by tools/avx2lean.py.
-/
namespace Saber.Avx

namespace Matrix
/-! The variables and the argument of `transpose_n1`. -/
abbrev r0 : Ex := .v 0
abbrev r1 : Ex := .v 1
abbrev r2 : Ex := .v 2
abbrev r3 : Ex := .v 3
abbrev r4 : Ex := .v 4
abbrev r5 : Ex := .v 5
abbrev r6 : Ex := .v 6
abbrev r7 : Ex := .v 7
abbrev r8 : Ex := .v 8
abbrev r9 : Ex := .v 9
abbrev r10 : Ex := .v 10
abbrev r11 : Ex := .v 11
abbrev temp : Ex := .v 12
abbrev temp0 : Ex := .v 13
abbrev temp1 : Ex := .v 14
abbrev temp2 : Ex := .v 15
abbrev M : Nat → Ex := .ix 0

/-- The body of `transpose_n1` (matrix.c:14-125). -/
def body : List Stmt :=
  [ r0 ≔ unpacklo16 (M 0) (M 1), r1 ≔ unpacklo16 (M 2) (M 3), r2 ≔ unpacklo16 (M 4) (M 5), r3 ≔ unpacklo16 (M 6) (M 7),
    r4 ≔ unpacklo16 (M 8) (M 9), r5 ≔ unpacklo16 (M 10) (M 11), r6 ≔ unpacklo16 (M 12) (M 13), r7 ≔ unpacklo16 (M 14) (M 15),
    temp ≔ unpacklo32 r0 r1, temp0 ≔ unpacklo32 r2 r3, temp1 ≔ unpacklo32 r4 r5, temp2 ≔ unpacklo32 r6 r7, r8 ≔ unpackhi32 r0 r1,
    r9 ≔ unpackhi32 r2 r3, r10 ≔ unpackhi32 r4 r5, r11 ≔ unpackhi32 r6 r7, r0 ≔ unpacklo64 temp temp0, r2 ≔ unpackhi64 temp temp0,
    r1 ≔ unpacklo64 temp1 temp2, r3 ≔ unpackhi64 temp1 temp2, temp ≔ unpackhi16 (M 0) (M 1), temp0 ≔ unpackhi16 (M 2) (M 3),
    temp1 ≔ unpackhi16 (M 4) (M 5), temp2 ≔ unpackhi16 (M 6) (M 7), r4 ≔ unpackhi16 (M 8) (M 9), M 0 ≔ permute20 r0 r1, M 8 ≔ permute31 r0 r1,
    M 1 ≔ permute20 r2 r3, M 9 ≔ permute31 r2 r3, r5 ≔ unpackhi16 (M 10) (M 11), r6 ≔ unpackhi16 (M 12) (M 13), r7 ≔ unpackhi16 (M 14) (M 15),
    r0 ≔ unpacklo64 r8 r9, r1 ≔ unpacklo64 r10 r11, r2 ≔ unpackhi64 r8 r9, r3 ≔ unpackhi64 r10 r11, M 3 ≔ permute20 r2 r3,
    M 11 ≔ permute31 r2 r3, M 2 ≔ permute20 r0 r1, M 10 ≔ permute31 r0 r1, r0 ≔ unpacklo32 temp temp0, r1 ≔ unpacklo32 temp1 temp2,
    r2 ≔ unpacklo32 r4 r5, r3 ≔ unpacklo32 r6 r7, r8 ≔ unpacklo64 r0 r1, r10 ≔ unpackhi64 r0 r1, r9 ≔ unpacklo64 r2 r3,
    r11 ≔ unpackhi64 r2 r3, M 4 ≔ permute20 r8 r9, M 12 ≔ permute31 r8 r9, M 5 ≔ permute20 r10 r11, M 13 ≔ permute31 r10 r11,
    r0 ≔ unpackhi32 temp temp0, r1 ≔ unpackhi32 temp1 temp2, r2 ≔ unpackhi32 r4 r5, r3 ≔ unpackhi32 r6 r7, r4 ≔ unpacklo64 r0 r1,
    r6 ≔ unpackhi64 r0 r1, r5 ≔ unpacklo64 r2 r3, r7 ≔ unpackhi64 r2 r3, M 6 ≔ permute20 r4 r5, M 14 ≔ permute31 r4 r5, M 7 ≔ permute20 r6 r7,
    M 15 ≔ permute31 r6 r7 ]
end Matrix

/-- `transpose_n1` (matrix.c:14-125); the new content of `M` is returned. -/
def transpose_n1 (M : List Vec) : CM (List Vec) := do
  let r ← run 16 [M] Matrix.body
  rd r 0

end Saber.Avx
