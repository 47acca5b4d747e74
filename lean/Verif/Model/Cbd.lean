import Verif.Model.Params
/-!
# `Reference_Implementation_KEM/cbd.c`
-/
namespace Saber

/-- `load_littleendian` (cbd.c:14-21); `x` points to `x[off]`. -/
def load_littleendian (x : List Byte) (off bytes : Nat) : CM (BitVec 64) := do
  let x0 ← rd x off
  loop (bytes - 1) (x0.setWidth 64) fun i r => do
    let v ← rd x (off + (i + 1))
    pure (r ||| (v.setWidth 64 <<< (8 * (i + 1))))

/-- The loop `for (j = 0; j < n; j++) d += (t >> j) & mask` (cbd.c:32-34, 57-59, 82-84). -/
def cbdSum {w : Nat} (n : Nat) (mask t : BitVec w) : BitVec w :=
  (List.range n).foldl (fun d j => d + ((t >>> j) &&& mask)) 0

/-- Four coefficients for `SABER_MU == 6` (cbd.c:32-48); `t`, `d`, `a`, `b` are `uint32_t`. -/
def cbdBlk6 (t : BitVec 32) : List (BitVec 16) :=
  let d := cbdSum 3 0x249249 t
  let a0 := d &&& 0x7
  let b0 := (d >>> 3) &&& 0x7
  let a1 := (d >>> 6) &&& 0x7
  let b1 := (d >>> 9) &&& 0x7
  let a2 := (d >>> 12) &&& 0x7
  let b2 := (d >>> 15) &&& 0x7
  let a3 := (d >>> 18) &&& 0x7
  let b3 := d >>> 21
  [(a0 - b0).setWidth 16, (a1 - b1).setWidth 16, (a2 - b2).setWidth 16, (a3 - b3).setWidth 16]

/-- Four coefficients for `SABER_MU == 8` (cbd.c:57-73); `t`, `d`, `a`, `b` are `uint32_t`. -/
def cbdBlk8 (t : BitVec 32) : List (BitVec 16) :=
  let d := cbdSum 4 0x11111111 t
  let a0 := d &&& 0xf
  let b0 := (d >>> 4) &&& 0xf
  let a1 := (d >>> 8) &&& 0xf
  let b1 := (d >>> 12) &&& 0xf
  let a2 := (d >>> 16) &&& 0xf
  let b2 := (d >>> 20) &&& 0xf
  let a3 := (d >>> 24) &&& 0xf
  let b3 := d >>> 28
  [(a0 - b0).setWidth 16, (a1 - b1).setWidth 16, (a2 - b2).setWidth 16, (a3 - b3).setWidth 16]

/-- Four coefficients for `SABER_MU == 10` (cbd.c:82-98); `t`, `d`, `a`, `b` are `uint64_t`. -/
def cbdBlk10 (t : BitVec 64) : List (BitVec 16) :=
  let d := cbdSum 5 0x0842108421 t
  let a0 := d &&& 0x1f
  let b0 := (d >>> 5) &&& 0x1f
  let a1 := (d >>> 10) &&& 0x1f
  let b1 := (d >>> 15) &&& 0x1f
  let a2 := (d >>> 20) &&& 0x1f
  let b2 := (d >>> 25) &&& 0x1f
  let a3 := (d >>> 30) &&& 0x1f
  let b3 := d >>> 35
  [(a0 - b0).setWidth 16, (a1 - b1).setWidth 16, (a2 - b2).setWidth 16, (a3 - b3).setWidth 16]

/-- `cbd` (cbd.c:23-103); `buf` points to `buf[off]`; the new content of `s` is returned. -/
def cbd (P : PSet) (s : List (BitVec 16)) (buf : List Byte) (off : Nat) : CM (List (BitVec 16)) :=
  match P with
  | .fire => loop (N / 4) s fun i s => do
    let t ← load_littleendian buf (off + 3 * i) 3
    wrs s (4 * i) (cbdBlk6 (t.setWidth 32))
  | .saber => loop (N / 4) s fun i s => do
    let t ← load_littleendian buf (off + 4 * i) 4
    wrs s (4 * i) (cbdBlk8 (t.setWidth 32))
  | .light => loop (N / 4) s fun i s => do
    let t ← load_littleendian buf (off + 5 * i) 5
    wrs s (4 * i) (cbdBlk10 t)

end Saber
