import Verif.Proof.Arm.Tc
/-!
# C79: `toom_cook_4way_striding_asm` does not multiply

`tcF conc ra` runs the instructions of `toom_cook_4way_striding_asm` (tc.s) and of the function it calls seven times (kara.s) on the machine of
`Model/Arm/Machine.lean`.  `ra` is the address of the instruction after the last call, as a number: the code uses it as one.  `g` gives arbitrary contents
of the registers that do not hold arguments; `stk` is the stack below the stack pointer, with arbitrary contents.
-/
namespace Saber.Props
open Spec Arm M4

/-- Exchange the coefficients `4j+1` and `4j+2` for all `j`. -/
def swap12 (p : Poly) : Poly := fun k => if k.val % 4 = 1 then p (k + 1) else if k.val % 4 = 2 then p (k - 1) else p k

/-- What the code adds to the coefficients besides a product: the halves of the return address to the first two, `z` to the third, and a halfword `u`
left in a register to those with the numbers 7, 11, 15, …, 255. -/
def leftover (ra : BitVec 32) (z : Int) (u : BitVec 16) (k : Fin 256) : Int :=
  if k = 0 then ra.toNat % 65536 else if k = 1 then ra.toNat / 65536 else if k = 2 then z
  else if k.val % 4 = 3 ∧ k ≠ 3 then u.toNat else 0

theorem toP_swL (a : List (BitVec 16)) : toP (swL a) = swap12 (toP a) := by
  funext k
  have hk := k.isLt
  unfold toP swap12
  rw [swL, range_getD _ hk]
  have h : k.val % 4 < 4 := Nat.mod_lt _ (by decide)
  split
  next h1 =>
    show _ = ((a.getD (k + 1).val 0).toNat : Int)
    rw [h1, show (k + 1).val = 4 * (k.val / 4) + swp 1 by rw [Fin.val_add]; show (k.val + 1) % 256 = 4 * (k.val / 4) + 2; omega]
  next h1 =>
  split
  next h2 =>
    show _ = ((a.getD (k - 1).val 0).toNat : Int)
    rw [h2, show (k - 1).val = 4 * (k.val / 4) + swp 2 by
      rw [Fin.sub_def]; show (256 - 1 + k.val) % 256 = 4 * (k.val / 4) + 1; omega]
  next h2 =>
    have : swp (k.val % 4) = k.val % 4 := by
      unfold swp
      split <;> omega
    rw [this, show 4 * (k.val / 4) + k.val % 4 = k.val by omega]

/-- C79: what the function does, for all arrays and all contents of registers and stack.  It returns to its caller, leaves `a` as it was, stays within
the three arrays and 1772 bytes of stack, and preserves the stack pointer and `r4`-`r11`.  To `res` it adds, modulo `2^13`, the product of `a` and `b` with the
coefficients `4j+1` and `4j+2` exchanged in both, and `leftover`.  It overwrites `b`. -/
theorem C79_result (ra : BitVec 32) (g : Reg → Val conc.W) (hg : ∀ r, g r ≠ .undef) (a b res : List (BitVec 16)) (stk : List (Cell (BitVec 16)))
    (ha : a.length = 256) (hb : b.length = 256) (hr : res.length = 256) (hs : stk.length = 886) :
    ∃ s b' res' stk' u, tcF conc ra (toomStart g a b res stk) = some s ∧ s.mem = [halves a, halves b', halves res', stk'] ∧
      b'.length = 256 ∧ res'.length = 256 ∧
      EqMod 8192 (toP res') (fun k => toP res k + negMul (swap12 (toP a)) (swap12 (toP b)) k +
        leftover ra (negMul64 (fun j => vals a (4 * j)) (fun j => vals b (4 * j)) 0) u k) ∧
      s.pc = (toomStart g a b res stk).lr ∧ s.sp = (toomStart g a b res stk).sp ∧
      s.r4 = g .r4 ∧ s.r5 = g .r5 ∧ s.r6 = g .r6 ∧ s.r7 = g .r7 ∧ s.r8 = g .r8 ∧ s.r9 = g .r9 ∧ s.sl = g .sl ∧ s.fp = g .fp := by
  obtain ⟨s, b', res', stk', u, h1, h2, h3, h4, h5, h6, h7, h⟩ := tc_run ra g hg a b res stk ha hb hr hs
  refine ⟨s, b', res', stk', u, h1, h2, h3, h4, fun k => ?_, h6, ?_, h⟩
  · rw [h5 k, toP_swL, toP_swL]
    congr 2
    have e0 : k = 0 ↔ k.val = 0 := Fin.ext_iff
    have e1 : k = 1 ↔ k.val = 1 := Fin.ext_iff
    have e2 : k = 2 ↔ k.val = 2 := Fin.ext_iff
    have e3 : k = 3 ↔ k.val = 3 := Fin.ext_iff
    unfold leftover tcExtra
    simp only [ne_eq, e0, e1, e2, e3]
  · rw [h7]
    show _ = Val.a (Atom.ptr 3 (2 * stk.length))
    rw [hs]
    rfl

/-- The result on arrays as a function on arrays. -/
theorem tc_asm_eq (ra : BitVec 32) (g : Reg → Val conc.W) (hg : ∀ r, g r ≠ .undef) (a b res : List (BitVec 16)) (stk : List (Cell (BitVec 16)))
    (ha : a.length = 256) (hb : b.length = 256) (hr : res.length = 256) (hs : stk.length = 886) :
    ∃ b' res' u, tc_asm ra g stk a b res = .ok (b', res') ∧ res'.length = 256 ∧
      EqMod 8192 (toP res') (fun k => toP res k + negMul (swap12 (toP a)) (swap12 (toP b)) k +
        leftover ra (negMul64 (fun j => vals a (4 * j)) (fun j => vals b (4 * j)) 0) u k) := by
  obtain ⟨s, b', res', stk', u, h1, h2, -, h4, h5, -⟩ := C79_result ra g hg a b res stk ha hb hr hs
  refine ⟨b', res', u, ?_, h4, h5⟩
  unfold tc_asm
  rw [h1]
  simp only [h2, unhalves_halves]

theorem negMul_zero (p : Poly) (k : Fin 256) : negMul (fun _ => 0) p k = 0 := by
  unfold negMul
  refine Finset.sum_eq_zero fun i _ => ?_
  simp

theorem swap12_zero : swap12 (fun _ => 0) = fun _ => 0 := by
  funext k
  unfold swap12
  split
  · rfl
  · split <;> rfl

/-- C79: the function does not add zero to `res` when `a` and `b` are zero, wherever the code is: the address after a call is odd in Thumb code. -/
theorem C79_zero (ra : BitVec 32) (hra : ra.toNat % 2 = 1) (g : Reg → Val conc.W) (hg : ∀ r, g r ≠ .undef) (res : List (BitVec 16))
    (stk : List (Cell (BitVec 16))) (hr : res.length = 256) (hs : stk.length = 886) :
    ∃ b' res', tc_asm ra g stk (List.replicate 256 0) (List.replicate 256 0) res = .ok (b', res') ∧
      (toP res' 0 - toP res 0) % 2 = 1 := by
  obtain ⟨b', res', u, h1, -, h3⟩ := tc_asm_eq ra g hg (List.replicate 256 0) (List.replicate 256 0) res stk List.length_replicate
    List.length_replicate hr hs
  refine ⟨b', res', h1, ?_⟩
  have hz : toP (List.replicate 256 0) = fun _ => 0 := by
    funext k
    unfold toP
    rw [List.getD_eq_getElem?_getD, List.getElem?_replicate_of_lt k.isLt]
    rfl
  have := h3 0
  simp only [hz, swap12_zero, negMul_zero, leftover, if_true] at this
  omega

/-- The array of the polynomial `X^i`. -/
def mono (i : Nat) : List (BitVec 16) := (List.range 256).map fun j => if j = i then 1 else 0

/-- C79: for every address of the code and all contents of registers and stack, `X` times `X^3` has the coefficient 0 at `X^4`. -/
theorem C79_wrong (ra : BitVec 32) (g : Reg → Val conc.W) (hg : ∀ r, g r ≠ .undef) (stk : List (Cell (BitVec 16))) (hs : stk.length = 886) :
    ∃ b' res', tc_asm ra g stk (mono 1) (mono 3) (List.replicate 256 0) = .ok (b', res') ∧ toP res' 4 % 8192 = 0 ∧
      negMul (toP (mono 1)) (toP (mono 3)) 4 = 1 := by
  obtain ⟨b', res', u, h1, -, h3⟩ := tc_asm_eq ra g hg (mono 1) (mono 3) (List.replicate 256 0) stk (by rw [mono, List.length_map, List.length_range])
    (by rw [mono, List.length_map, List.length_range]) List.length_replicate hs
  refine ⟨b', res', h1, ?_, by decide +kernel⟩
  have e1 : negMul (swap12 (toP (mono 1))) (swap12 (toP (mono 3))) 4 = 0 := by decide +kernel
  have e2 : toP (List.replicate 256 0) 4 = 0 := by decide +kernel
  have := h3 4
  simp only [e1, e2] at this
  rw [this]
  rfl

/-- C79: wherever the code is, the function does not meet the contract of a multiplication on which `pol_mul` relies. -/
theorem C79_not_correct (ra : BitVec 32) (g : Reg → Val conc.W) (hg : ∀ r, g r ≠ .undef) (stk : List (Cell (BitVec 16))) (hs : stk.length = 886) :
    ¬ (tc_asm ra g stk).Correct := by
  intro h
  obtain ⟨b', res', h1, h2, h3⟩ := C79_wrong ra g hg stk hs
  obtain ⟨b2, res2, h4, -, -, h5⟩ := h (mono 1) (mono 3) (List.replicate 256 0) (by rw [mono, List.length_map, List.length_range])
    (by rw [mono, List.length_map, List.length_range]) List.length_replicate
  rw [h1] at h4
  have e : res2 = res' := by
    have := Except.ok.inj h4
    exact (congrArg Prod.snd this).symm
  subst e
  have := h5 4
  have e2 : toP (List.replicate 256 0) 4 = 0 := by decide +kernel
  simp only [h3, e2] at this
  omega

/-- C79: the hypotheses hold for a concrete state at the call and a concrete address. -/
example : ∃ b' res', tc_asm 0x08001235 (fun _ => .w (7 : BitVec 32)) (List.replicate 886 .undef) (List.replicate 256 0) (List.replicate 256 0)
    (List.replicate 256 0) = .ok (b', res') ∧ (toP res' 0 - toP (List.replicate 256 0) 0) % 2 = 1 :=
  C79_zero _ (by decide) _ (by simp) _ _ List.length_replicate List.length_replicate

end Saber.Props
