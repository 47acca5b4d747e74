import Verif.CSem
/-!
# `Cortex-M_Implementation_KEM/Cortex-M0/saber-ref-mem/src/poly_mul.c`

All line numbers refer to that file.  Sums and differences of at most four `uint16_t` values that are stored to a `uint16_t`
are `BitVec 16` operations (they are inside `int`).  The multiplication is different: `a[i]*b[j]` multiplies two `uint16_t` promoted to
`int`, which can leave `int`; see `macC`.

`unrolled_kara_mem_top` (lines 44-189) and `unrolled_kara_mem_bottom` (lines 191-336) are the same text up to the macro for the size
(`KARA_TOP_K` = 128, `KARA_BOTTOM_K` = 32), the routine called for the nine products (`unrolled_kara_mem_bottom`,
`school_book_mul2_16`) and the global scratch array (`kara_tmp_top`, `kara_tmp`).  They are modelled by the one function `kara`
with these as parameters; comments cite the lines of the first copy.
-/
namespace Saber.M0

/-- How `c + a*b` is stored to a `uint16_t`. -/
abbrev Mac := BitVec 16 → BitVec 16 → BitVec 16 → CM (BitVec 16)

/-- `c += a*b` as written in line 344, by the C standard: the `int` product of the promoted operands may overflow. -/
def macC : Mac := fun c a b => do
  let p ← imul (prom a) (prom b)
  let s ← iadd (prom c) p
  pure (u16 s)

/-- `c += a*b` as compiled with wrapping signed arithmetic (`-fwrapv`), which is what the Cortex-M0 `muls` instruction computes. -/
def macWrap : Mac := fun c a b => .ok (c + a * b)

/-- A routine that adds the product of the arrays at `a[ao..]` and `c[co..]` to the array at `d[dof..]` and returns `d`.
In the calls where the second operand points into `d` as well, `c` is a copy of `d` taken at the call: the region read as
operand and the region written do not overlap (lines 61, 73, 86, 105, 152). -/
abbrev Leaf := List (BitVec 16) → Nat → List (BitVec 16) → Nat → List (BitVec 16) → Nat → CM (List (BitVec 16))

/-- `school_book_mul2_16` (lines 339-347) -/
def school_book_mul2_16 (mac : Mac) : Leaf := fun a ao b bo c cof =>
  loop 16 c fun i c => loop 16 c fun j c => do
    let x ← rd a (ao + i)
    let y ← rd b (bo + j)
    let z ← rd c (cof + (i + j))
    let v ← mac z x y
    wr c (cof + (i + j)) v

/-- The array `d` and the scratch array `kara_tmp_top`. -/
structure KM where
  d : List (BitVec 16)
  t : List (BitVec 16)

section
variable (k : Nat) (a : List (BitVec 16)) (ao : Nat) (c : List (BitVec 16)) (co : Nat) (o : Nat)

/-- `loop1` (lines 49-56) -/
def kara1 (i : Nat) (s : KM) : CM KM := do
  let x ← rd s.d (o + (i)); let y ← rd s.d (o + (k+i))
  let d ← wr s.d (o + (k+i)) (x + y)
  let x ← rd d (o + (k/2+i)); let y ← rd d (o + (k+k/2+i)); let z ← rd d (o + (k+i))
  let d ← wr d (o + (k+k/2+i)) (x + y + z)
  let x ← rd a (ao + i); let y ← rd a (ao + (k+i))
  let d ← wr d (o + (3*k-1+i)) (x + y)
  let x ← rd a (ao + (k/2+i)); let y ← rd a (ao + (k+k/2+i))
  let d ← wr d (o + (3*k+k/2-1+i)) (x + y)
  let x ← rd d (o + (3*k-1+i)); let y ← rd d (o + (3*k+k/2-1+i))
  let t ← wr s.t i (x + y)
  let d ← wr d (o + (2*k+i)) 0
  pure ⟨d, t⟩

/-- `loop1_2` (lines 57-59) -/
def kara1_2 (i : Nat) (s : KM) : CM KM := do
  let x ← rd c (co + i); let y ← rd c (co + (k/2+i)); let z ← rd c (co + (k+i)); let u ← rd c (co + (k+k/2+i))
  let d ← wr s.d (o + (2*k+k/2-1+i)) (x + y + z + u)
  pure ⟨d, s.t⟩

/-- Body of `loop2` (lines 65-67) -/
def kara2 (i : Nat) (s : KM) : CM KM := do
  let x ← rd s.d (o + (k+k/2+i)); let y ← rd s.d (o + (2*k+i))
  let d ← wr s.d (o + (2*k+k/2-1+i)) (x + y)
  let d ← wr d (o + (k+k/2+i)) 0
  let x ← rd c (co + i); let y ← rd c (co + (k+i))
  let t ← wr s.t i (x + y)
  pure ⟨d, t⟩

/-- After `loop2` (lines 69-71) -/
def kara2' (i : Nat) (s : KM) : CM KM := do
  let x ← rd s.d (o + (k+k/2+i))
  let d ← wr s.d (o + (2*k+k/2-1+i)) x
  let d ← wr d (o + (k+k/2+i)) 0
  let x ← rd c (co + i); let y ← rd c (co + (k+i))
  let t ← wr s.t i (x + y)
  pure ⟨d, t⟩

/-- Body of `loop3` (lines 77-80) -/
def kara3 (i : Nat) (s : KM) : CM KM := do
  let x ← rd s.d (o + (2*k+i)); let y ← rd s.d (o + (k+k/2+i))
  let d ← wr s.d (o + (2*k+i)) (x - y)
  let x ← rd d (o + (2*k+k/2-1+i)); let y ← rd d (o + (k+i))
  let d ← wr d (o + (k+k/2+i)) (x - y)
  let d ← wr d (o + (2*k+k/2-1+i)) 0
  let x ← rd c (co + (k/2+i)); let y ← rd c (co + (k+k/2+i))
  let t ← wr s.t i (x + y)
  pure ⟨d, t⟩

/-- After `loop3` (lines 82-84) -/
def kara3' (i : Nat) (s : KM) : CM KM := do
  let x ← rd s.d (o + (2*k+k/2-1+i)); let y ← rd s.d (o + (k+i))
  let d ← wr s.d (o + (k+k/2+i)) (x - y)
  let d ← wr d (o + (2*k+k/2-1+i)) 0
  let x ← rd c (co + (k/2+i)); let y ← rd c (co + (k+k/2+i))
  let t ← wr s.t i (x + y)
  pure ⟨d, t⟩

/-- Body of `loop4` (lines 90-95) -/
def kara4 (i : Nat) (s : KM) : CM KM := do
  let x ← rd s.d (o + i); let y ← rd s.d (o + (k/2+i))
  let d ← wr s.d (o + (k/2+i)) (x + y)
  let x ← rd d (o + (2*k+i)); let y ← rd d (o + (2*k+k/2+i))
  let d ← wr d (o + (2*k+i)) (x - y)
  let x ← rd d (o + (2*k+i)); let y ← rd d (o + (k+i))
  let d ← wr d (o + (3*k-1+i)) (x + y)
  let x ← rd d (o + (k+k/2+i)); let y ← rd d (o + (2*k+i))
  let d ← wr d (o + (3*k+k/2-1+i)) (x - y)
  let d ← wr d (o + (k+i)) 0
  pure ⟨d, s.t⟩

/-- After `loop4` (lines 97-99) -/
def kara4' (i : Nat) (s : KM) : CM KM := do
  let x ← rd s.d (o + i); let y ← rd s.d (o + (k/2+i))
  let d ← wr s.d (o + (k/2+i)) (x + y)
  let x ← rd d (o + (2*k+i)); let y ← rd d (o + (k+i))
  let d ← wr d (o + (3*k-1+i)) (x + y)
  let x ← rd d (o + (k+k/2+i)); let y ← rd d (o + (2*k+i))
  let d ← wr d (o + (3*k+k/2-1+i)) (x - y)
  pure ⟨d, s.t⟩

/-- `loop4_2` (lines 100-103) -/
def kara4_2 (i : Nat) (s : KM) : CM KM := do
  let x ← rd a (ao + i); let y ← rd a (ao + (k/2+i))
  let d ← wr s.d (o + (k+k/2-1+i)) (x + y)
  let x ← rd c (co + i); let y ← rd c (co + (k/2+i))
  let t ← wr s.t i (x + y)
  pure ⟨d, t⟩

/-- Body of `loop5` (lines 109-110) -/
def kara5 (i : Nat) (s : KM) : CM KM := do
  let x ← rd s.d (o + (k/2+i)); let y ← rd s.d (o + (k+i))
  let d ← wr s.d (o + (k+k/2-1+i)) (x + y)
  let d ← wr d (o + (k/2+i)) 0
  pure ⟨d, s.t⟩

/-- After `loop5` (lines 112-113) -/
def kara5' (i : Nat) (s : KM) : CM KM := do
  let x ← rd s.d (o + (k/2+i))
  let d ← wr s.d (o + (k+k/2-1+i)) x
  let d ← wr d (o + (k/2+i)) 0
  pure ⟨d, s.t⟩

/-- Body of `loop6` (lines 119-121) -/
def kara6 (i : Nat) (s : KM) : CM KM := do
  let x ← rd s.d (o + (k+i)); let y ← rd s.d (o + (k/2+i))
  let d ← wr s.d (o + (k+i)) (x - y)
  let x ← rd d (o + (k+k/2-1+i)); let y ← rd d (o + i)
  let d ← wr d (o + (k/2+i)) (x - y)
  let d ← wr d (o + (k+k/2-1+i)) 0
  pure ⟨d, s.t⟩

/-- After `loop6` (lines 123-124) -/
def kara6' (i : Nat) (s : KM) : CM KM := do
  let x ← rd s.d (o + (k+k/2-1+i)); let y ← rd s.d (o + i)
  let d ← wr s.d (o + (k/2+i)) (x - y)
  let d ← wr d (o + (k+k/2-1+i)) 0
  pure ⟨d, s.t⟩

/-- Body of `loop7` (lines 130-137) -/
def kara7 (i : Nat) (s : KM) : CM KM := do
  let x ← rd s.d (o + (k/2+i)); let y ← rd s.d (o + (k+i))
  let d ← wr s.d (o + (k/2+i)) (x - y)
  let x ← rd d (o + (2*k+i)); let y ← rd d (o + (k+i)); let z ← rd d (o + (k+k/2+i))
  let d ← wr d (o + (2*k+i)) (x - y + z)
  let x ← rd d (o + (3*k-1+i)); let y ← rd d (o + i)
  let d ← wr d (o + (k+i)) (x - y)
  let d ← wr d (o + (3*k-1+i)) 0
  let x ← rd d (o + (2*k+i)); let y ← rd d (o + (2*k+k/2+i)); let z ← rd d (o + (k+k/2+i))
  let d ← wr d (o + (2*k+k/2+i)) (x + y - z)
  let x ← rd d (o + (3*k+k/2-1+i)); let y ← rd d (o + (k/2+i))
  let d ← wr d (o + (k+k/2+i)) (x - y)
  let x ← rd c (co + (k+i)); let y ← rd c (co + (k+k/2+i))
  let t ← wr s.t i (x + y)
  let x ← rd a (ao + (k+i)); let y ← rd a (ao + (k+k/2+i))
  let d ← wr d (o + (3*k+k/2-1+i)) (x + y)
  pure ⟨d, t⟩

/-- After `loop7` (lines 139-146) -/
def kara7' (i : Nat) (s : KM) : CM KM := do
  let x ← rd s.d (o + (k/2+i)); let y ← rd s.d (o + (k+i))
  let d ← wr s.d (o + (k/2+i)) (x - y)
  let x ← rd d (o + (2*k+i)); let y ← rd d (o + (k+i))
  let d ← wr d (o + (2*k+i)) (x - y)
  let x ← rd d (o + (3*k-1+i)); let y ← rd d (o + i)
  let d ← wr d (o + (k+i)) (x - y)
  let d ← wr d (o + (3*k-1+i)) 0
  let x ← rd d (o + (3*k+k/2-1+i)); let y ← rd d (o + (k/2+i))
  let d ← wr d (o + (k+k/2+i)) (x - y)
  let x ← rd d (o + (2*k+i)); let y ← rd d (o + (2*k+k/2+i))
  let d ← wr d (o + (2*k+k/2+i)) (x + y)
  let x ← rd c (co + (k+i)); let y ← rd c (co + (k+k/2+i))
  let t ← wr s.t i (x + y)
  let x ← rd a (ao + (k+i)); let y ← rd a (ao + (k+k/2+i))
  let d ← wr d (o + (3*k+k/2-1+i)) (x + y)
  pure ⟨d, t⟩

/-- Body of `loop8` (lines 156-157) -/
def kara8 (i : Nat) (s : KM) : CM KM := do
  let x ← rd s.d (o + (2*k+k/2+i)); let y ← rd s.d (o + (3*k+i))
  let d ← wr s.d (o + (3*k+k/2-1+i)) (x + y)
  let d ← wr d (o + (2*k+k/2+i)) 0
  pure ⟨d, s.t⟩

/-- After `loop8` (lines 159-160) -/
def kara8' (i : Nat) (s : KM) : CM KM := do
  let x ← rd s.d (o + (2*k+k/2+i))
  let d ← wr s.d (o + (3*k+k/2-1+i)) x
  let d ← wr d (o + (2*k+k/2+i)) 0
  pure ⟨d, s.t⟩

/-- Body of `loop9` (lines 166-168) -/
def kara9 (i : Nat) (s : KM) : CM KM := do
  let x ← rd s.d (o + (3*k+i)); let y ← rd s.d (o + (2*k+k/2+i))
  let d ← wr s.d (o + (3*k+i)) (x - y)
  let x ← rd d (o + (3*k+k/2-1+i)); let y ← rd d (o + (2*k+i))
  let d ← wr d (o + (2*k+k/2+i)) (x - y)
  let d ← wr d (o + (3*k+k/2-1+i)) 0
  pure ⟨d, s.t⟩

/-- After `loop9` (lines 170-171) -/
def kara9' (i : Nat) (s : KM) : CM KM := do
  let x ← rd s.d (o + (3*k+k/2-1+i)); let y ← rd s.d (o + (2*k+i))
  let d ← wr s.d (o + (2*k+k/2+i)) (x - y)
  let d ← wr d (o + (3*k+k/2-1+i)) 0
  pure ⟨d, s.t⟩

/-- Body of `loop10` (lines 177-183) -/
def kara10 (i : Nat) (s : KM) : CM KM := do
  let x ← rd s.d (o + (2*k+k/2+i)); let y ← rd s.d (o + (3*k+i))
  let d ← wr s.d (o + (2*k+k/2+i)) (x - y)
  let x ← rd d (o + (3*k+i)); let y ← rd d (o + (3*k+k/2+i))
  let d ← wr d (o + (3*k+i)) (x - y)
  let x ← rd d (o + (k+i)); let y ← rd d (o + (2*k+i))
  let d ← wr d (o + (k+i)) (x - y)
  let x ← rd d (o + (2*k+i)); let y ← rd d (o + (3*k+i))
  let d ← wr d (o + (2*k+i)) (x - y)
  let x ← rd d (o + (k+k/2+i)); let y ← rd d (o + (2*k+k/2+i))
  let d ← wr d (o + (k+k/2+i)) (x - y)
  let x ← rd d (o + (2*k+k/2+i)); let y ← rd d (o + (3*k+k/2+i))
  let d ← wr d (o + (2*k+k/2+i)) (x - y)
  pure ⟨d, s.t⟩

/-- After `loop10` (lines 185-188) -/
def kara10' (i : Nat) (s : KM) : CM KM := do
  let x ← rd s.d (o + (2*k+k/2+i)); let y ← rd s.d (o + (3*k+i))
  let d ← wr s.d (o + (2*k+k/2+i)) (x - y)
  let x ← rd d (o + (k+i)); let y ← rd d (o + (2*k+i))
  let d ← wr d (o + (k+i)) (x - y)
  let x ← rd d (o + (2*k+i)); let y ← rd d (o + (3*k+i))
  let d ← wr d (o + (2*k+i)) (x - y)
  let x ← rd d (o + (k+k/2+i)); let y ← rd d (o + (2*k+k/2+i))
  let d ← wr d (o + (k+k/2+i)) (x - y)
  pure ⟨d, s.t⟩

end

/-- `unrolled_kara_mem_top` (lines 44-189, `k` = 128) and `unrolled_kara_mem_bottom` (lines 191-336, `k` = 32).
The global scratch array of `k/2` elements is written before it is read in every call; it is modelled as an uninitialised local. -/
def kara (k : Nat) (leaf : Leaf) : Leaf := fun a ao c co d o => do
  let s : KM := ⟨d, uninit 16 (100 + k) (k / 2)⟩
  let s ← loop (k/2) s (kara1 k a ao o)
  let s ← loop (k/2) s (kara1_2 k c co o)
  let d ← leaf s.t 0 s.d (o + (2*k+k/2-1)) s.d (o + (k+k/2))
  let s ← loop (k/2-1) ⟨d, s.t⟩ (kara2 k c co o)
  let s ← kara2' k c co o (k/2-1) s
  let d ← leaf s.t 0 s.d (o + (3*k-1)) s.d (o + k)
  let s ← loop (k/2-1) ⟨d, s.t⟩ (kara3 k c co o)
  let s ← kara3' k c co o (k/2-1) s
  let d ← leaf s.t 0 s.d (o + (k/2+3*k-1)) s.d (o + 2*k)
  let s ← loop (k/2-1) ⟨d, s.t⟩ (kara4 k o)
  let s ← kara4' k o (k/2-1) s
  let s ← loop (k/2) s (kara4_2 k a ao c co o)
  let d ← leaf s.t 0 s.d (o + (k+k/2-1)) s.d (o + k/2)
  let s ← loop (k/2-1) ⟨d, s.t⟩ (kara5 k o)
  let s ← kara5' k o (k/2-1) s
  let d ← leaf a ao c co s.d o
  let s ← loop (k/2-1) ⟨d, s.t⟩ (kara6 k o)
  let s ← kara6' k o (k/2-1) s
  let d ← leaf a (ao + k/2) c (co + k/2) s.d (o + k)
  let s ← loop (k/2-1) ⟨d, s.t⟩ (kara7 k a ao c co o)
  let s ← kara7' k a ao c co o (k/2-1) s
  let d ← leaf s.t 0 s.d (o + (3*k+k/2-1)) s.d (o + (2*k+k/2))
  let s ← loop (k/2-1) ⟨d, s.t⟩ (kara8 k o)
  let s ← kara8' k o (k/2-1) s
  let d ← leaf a (ao + k) c (co + k) s.d (o + 2*k)
  let s ← loop (k/2-1) ⟨d, s.t⟩ (kara9 k o)
  let s ← kara9' k o (k/2-1) s
  let d ← leaf a (ao + (k+k/2)) c (co + (k+k/2)) s.d (o + 3*k)
  let s ← loop (k/2-1) ⟨d, s.t⟩ (kara10 k o)
  let s ← kara10' k o (k/2-1) s
  pure s.d

/-- `unrolled_kara_mem_bottom` (lines 191-336) -/
def unrolled_kara_mem_bottom (mac : Mac) : Leaf := kara 32 (school_book_mul2_16 mac)

/-- `unrolled_kara_mem_top` (lines 44-189) -/
def unrolled_kara_mem_top (mac : Mac) : Leaf := kara 128 (unrolled_kara_mem_bottom mac)

/-- `pol_mul` (lines 22-42): `res += a*b`; the new content of `res` is returned. -/
def pol_mul (mac : Mac) (a b res : List (BitVec 16)) : CM (List (BitVec 16)) := do
  let c ← loop 512 (uninit 16 101 512) fun i c => wr c i 0
  let c ← unrolled_kara_mem_top mac a 0 b 0 c 0
  let c ← loop 255 c fun t c => do
    let i := 256 + t
    let x ← rd c (i - 256)
    let y ← rd c i
    wr c (i - 256) (x - y)
  loop 256 res fun i res => do
    let x ← rd res i
    let y ← rd c i
    wr res i (x + y)

end Saber.M0
