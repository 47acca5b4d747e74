import Verif.Model.M0.PolyMul
/-!
# `poly_mul.c` of the Cortex-M0 port with its global scratch array, and with interrupts

`unrolled_kara_mem_top` keeps sums in the global array `kara_tmp_top` (line 16 of
`Cortex-M_Implementation_KEM/Cortex-M0/saber-ref-mem/src/poly_mul.c`).  Here the array is a state that calls pass on to each other, and an
interrupt can come between two parts of the function: before each of its nine calls of `unrolled_kara_mem_bottom`.

Simplification.  At these places the other global array, `kara_tmp` of `unrolled_kara_mem_bottom` (line 13), holds nothing that is still
needed; interrupts within `unrolled_kara_mem_bottom` are not considered, and that array is a local of the model as in `Model/M0/PolyMul.lean`.
-/
namespace Saber.M0

/-- What interrupt handlers do to `kara_tmp_top` before the product `n` (1 to 9). -/
abbrev Interrupts := Nat → List (BitVec 16) → List (BitVec 16)

/-- No interrupts. -/
def quiet : Interrupts := fun _ t => t

/-- `unrolled_kara_mem_top` (lines 44-189, `k` = 128); `t` is the scratch array.  Returns `d` and the scratch array. -/
def karaI (intr : Interrupts) (k : Nat) (leaf : Leaf) (a : List (BitVec 16)) (ao : Nat) (c : List (BitVec 16)) (co : Nat)
    (d : List (BitVec 16)) (o : Nat) (t : List (BitVec 16)) : CM (List (BitVec 16) × List (BitVec 16)) := do
  let s ← loop (k/2) ⟨d, t⟩ (kara1 k a ao o)
  let s ← loop (k/2) s (kara1_2 k c co o)
  let t := intr 1 s.t
  let d ← leaf t 0 s.d (o + (2*k+k/2-1)) s.d (o + (k+k/2))
  let s ← loop (k/2-1) ⟨d, t⟩ (kara2 k c co o)
  let s ← kara2' k c co o (k/2-1) s
  let t := intr 2 s.t
  let d ← leaf t 0 s.d (o + (3*k-1)) s.d (o + k)
  let s ← loop (k/2-1) ⟨d, t⟩ (kara3 k c co o)
  let s ← kara3' k c co o (k/2-1) s
  let t := intr 3 s.t
  let d ← leaf t 0 s.d (o + (k/2+3*k-1)) s.d (o + 2*k)
  let s ← loop (k/2-1) ⟨d, t⟩ (kara4 k o)
  let s ← kara4' k o (k/2-1) s
  let s ← loop (k/2) s (kara4_2 k a ao c co o)
  let t := intr 4 s.t
  let d ← leaf t 0 s.d (o + (k+k/2-1)) s.d (o + k/2)
  let s ← loop (k/2-1) ⟨d, t⟩ (kara5 k o)
  let s ← kara5' k o (k/2-1) s
  let t := intr 5 s.t
  let d ← leaf a ao c co s.d o
  let s ← loop (k/2-1) ⟨d, t⟩ (kara6 k o)
  let s ← kara6' k o (k/2-1) s
  let t := intr 6 s.t
  let d ← leaf a (ao + k/2) c (co + k/2) s.d (o + k)
  let s ← loop (k/2-1) ⟨d, t⟩ (kara7 k a ao c co o)
  let s ← kara7' k a ao c co o (k/2-1) s
  let t := intr 7 s.t
  let d ← leaf t 0 s.d (o + (3*k+k/2-1)) s.d (o + (2*k+k/2))
  let s ← loop (k/2-1) ⟨d, t⟩ (kara8 k o)
  let s ← kara8' k o (k/2-1) s
  let t := intr 8 s.t
  let d ← leaf a (ao + k) c (co + k) s.d (o + 2*k)
  let s ← loop (k/2-1) ⟨d, t⟩ (kara9 k o)
  let s ← kara9' k o (k/2-1) s
  let t := intr 9 s.t
  let d ← leaf a (ao + (k+k/2)) c (co + (k+k/2)) s.d (o + 3*k)
  let s ← loop (k/2-1) ⟨d, t⟩ (kara10 k o)
  let s ← kara10' k o (k/2-1) s
  pure (s.d, s.t)

/-- `pol_mul` (lines 22-42) with the scratch array `t` and with interrupts; returns `res` and the scratch array. -/
def pol_mulI (mac : Mac) (intr : Interrupts) (a b res t : List (BitVec 16)) : CM (List (BitVec 16) × List (BitVec 16)) := do
  let c ← loop 512 (uninit 16 101 512) fun i c => wr c i 0
  let (c, t) ← karaI intr 128 (unrolled_kara_mem_bottom mac) a 0 b 0 c 0 t
  let c ← loop 255 c fun t c => do
    let i := 256 + t
    let x ← rd c (i - 256)
    let y ← rd c i
    wr c (i - 256) (x - y)
  let res ← loop 256 res fun i res => do
    let x ← rd res i
    let y ← rd c i
    wr res i (x + y)
  pure (res, t)

/-- Calls of `pol_mul` one after the other, as a handler makes them: what they leave in the scratch array.  (A call that ended in undefined
behaviour would not return; with `macWrap` there is none.) -/
def afterCalls (mac : Mac) : List (List (BitVec 16) × List (BitVec 16) × List (BitVec 16)) → List (BitVec 16) → List (BitVec 16)
  | [], t => t
  | (a, b, res) :: cs, t => afterCalls mac cs (match pol_mulI mac quiet a b res t with
    | .ok (_, t') => t'
    | .error _ => t)

end Saber.M0
