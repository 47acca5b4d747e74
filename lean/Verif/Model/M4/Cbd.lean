import Verif.Model.Cbd
/-!
# `Cortex-M4/src/*/m4-striding/cbd.c`

The function `cbd` is the same text as in the reference implementation; `load_littleendian` returns a `uint32_t` for `SABER_MU` 6 and 8.
The three blocks of `Model/Cbd.lean` (`cbdBlk6`, `cbdBlk8`, `cbdBlk10`) are used for cbd.c:35-51, 58-76, 83-101 of this file.
-/
namespace Saber.M4

/-- `load_littleendian` for `SABER_MU == 6` and `8` (cbd.c:14-22): all in `uint32_t`. -/
def load_littleendian32 (x : List Byte) (off bytes : Nat) : CM (BitVec 32) := do
  let x0 ← rd x off
  loop (bytes - 1) (x0.setWidth 32) fun i r => do
    let v ← rd x (off + (i + 1))
    pure (r ||| (v.setWidth 32 <<< (8 * (i + 1))))

/-- `cbd` (cbd.c:26-106); `load_littleendian` for `SABER_MU == 10` (cbd.c:4-12) is the function of the reference implementation. -/
def cbd (P : PSet) (s : List (BitVec 16)) (buf : List Byte) (off : Nat) : CM (List (BitVec 16)) :=
  match P with
  | .fire => loop (N / 4) s fun i s => do
    let t ← load_littleendian32 buf (off + 3 * i) 3
    wrs s (4 * i) (cbdBlk6 t)
  | .saber => loop (N / 4) s fun i s => do
    let t ← load_littleendian32 buf (off + 4 * i) 4
    wrs s (4 * i) (cbdBlk8 t)
  | .light => loop (N / 4) s fun i s => do
    let t ← load_littleendian buf (off + 5 * i) 5
    wrs s (4 * i) (cbdBlk10 t)

end Saber.M4
