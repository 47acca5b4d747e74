import Verif.CSem
/-!
# `Reference_Implementation_KEM/test/PQCgenKAT_kem.c`: text input and output

A file opened for reading is the list of the characters that have not been read; a file opened for writing is the list of the
characters written.  The functions of the C library are modelled by their specification in the C locale: `fgetc` (`none` is `EOF`),
`isxdigit`, `fprintf` with `"%s"` and `"%02X"`, and `strncmp(line, marker, len) == 0` for a `marker` without NUL among its first `len`
characters.  Errors of the file system are not modelled.
-/
namespace Saber

/-- `MAX_MARKER_LEN` (PQCgenKAT_kem.c:17) -/
abbrev MAX_MARKER_LEN : Nat := 50

/-- First loop of `FindMarker` (PQCgenKAT_kem.c:148-154): reads `n - i` characters into `line[i..]`.  `none` means `return 0`. -/
def fmRead (line : List Byte) (i : Nat) : Nat → List Byte → CM (Option (List Byte × List Byte))
  | 0, s => pure (some (line, s))
  | _ + 1, [] => pure none
  | n + 1, c :: s => do
    let line ← wr line i c
    fmRead line (i + 1) n s

/-- `strncmp(line, marker, len) == 0` -/
def strncmpEq (line marker : List Byte) (len : Nat) : CM Bool :=
  loop len true fun i r => do
    let a ← rd line i
    let b ← rd marker i
    pure (r && a == b)

/-- The `while (1)` loop of `FindMarker` (PQCgenKAT_kem.c:157-168); `marker` is not empty when the comparison fails.  Returns the
value of the function and the rest of the file. -/
def fmLoop (marker : List Byte) (len : Nat) : List Byte → List Byte → CM (Int × List Byte)
  | line, [] => do
    if ← strncmpEq line marker len then pure (1, [])
    else
      let _ ← loop (len - 1) line fun i line => do
        let v ← rd line (i + 1)
        wr line i v
      pure (0, [])
  | line, c :: s => do
    if ← strncmpEq line marker len then pure (1, c :: s)
    else
      let line ← loop (len - 1) line fun i line => do
        let v ← rd line (i + 1)
        wr line i v
      let line ← wr line (len - 1) c
      let line ← wr line len 0
      fmLoop marker len line s

/-- `FindMarker` (PQCgenKAT_kem.c:137-172).  Returns the value of the function and the rest of the file. -/
def FindMarker (infile marker : List Byte) : CM (Int × List Byte) := do
  let len := if marker.length > MAX_MARKER_LEN - 1 then MAX_MARKER_LEN - 1 else marker.length
  match ← fmRead (uninit 8 80 MAX_MARKER_LEN) 0 len infile with
  | none => pure (0, [])
  | some (line, s) =>
    let line ← wr line len 0
    fmLoop marker len line s

/-- `isxdigit` -/
def isxdigit (ch : Byte) : Bool :=
  (48 ≤ ch.toNat && ch.toNat ≤ 57) || (65 ≤ ch.toNat && ch.toNat ≤ 70) || (97 ≤ ch.toNat && ch.toNat ≤ 102)

/-- The value `ich` of a digit (PQCgenKAT_kem.c:202-209). -/
def hexDigit (ch : Byte) : Byte :=
  if 48 ≤ ch.toNat ∧ ch.toNat ≤ 57 then n8 (ch.toNat - 48)
  else if 65 ≤ ch.toNat ∧ ch.toNat ≤ 70 then n8 (ch.toNat - 65 + 10)
  else if 97 ≤ ch.toNat ∧ ch.toNat ≤ 102 then n8 (ch.toNat - 97 + 10)
  else 0

/-- The shift of the array by one digit (PQCgenKAT_kem.c:211-213). -/
def hexShift (A : List Byte) (Length : Nat) (ich : Byte) : CM (List Byte) := do
  let A ← loop (Length - 1) A fun i A => do
    let x ← rd A i
    let y ← rd A (i + 1)
    wr A i (n8 ((x.toNat <<< 4) ||| (y.toNat >>> 4)))
  let x ← rd A (Length - 1)
  wr A (Length - 1) (n8 ((x.toNat <<< 4) ||| ich.toNat))

/-- The `while` loop of `ReadHex` (PQCgenKAT_kem.c:190-214).  Returns `A` and the rest of the file. -/
def readHexLoop (A : List Byte) (Length : Nat) (started : Bool) : List Byte → CM (List Byte × List Byte)
  | [] => pure (A, [])
  | ch :: s =>
    if !isxdigit ch then
      if !started then
        if ch = 10 then pure (A, s) else readHexLoop A Length started s
      else pure (A, s)
    else do
      let A ← hexShift A Length (hexDigit ch)
      readHexLoop A Length true s

/-- `ReadHex` (PQCgenKAT_kem.c:177-219).  Returns the value of the function, `A` and the rest of the file. -/
def ReadHex (infile A : List Byte) (Length : Nat) (str : List Byte) : CM (Int × List Byte × List Byte) := do
  if Length = 0 then
    let A ← wr A 0 0
    pure (1, A, infile)
  else
    let A ← memset A 0 0 Length
    let (found, s) ← FindMarker infile str
    if found ≠ 0 then
      let (A, s) ← readHexLoop A Length false s
      pure (1, A, s)
    else
      pure (0, A, s)

/-- `fprintf(fp, "%02X", x)` -/
def printByte (x : Byte) : List Byte :=
  let d := fun n : Nat => if n < 10 then n8 (48 + n) else n8 (65 + (n - 10))
  [d (x.toNat / 16), d (x.toNat % 16)]

/-- `fprintBstr` (PQCgenKAT_kem.c:221-236).  Returns the file. -/
def fprintBstr (fp S A : List Byte) (L : Nat) : CM (List Byte) := do
  let fp := fp ++ S
  let fp ← loop L fp fun i fp => do
    let x ← rd A i
    pure (fp ++ printByte x)
  let fp := if L = 0 then fp ++ [48, 48] else fp
  pure (fp ++ [10])

end Saber
