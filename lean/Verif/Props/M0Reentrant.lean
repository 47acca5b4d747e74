import Verif.Proof.M0.PolyMulInt
/-!
# C90: the global scratch array of the Cortex-M0 multiplication

`pol_mul` of the Cortex-M0 port keeps intermediate sums in a global array.  What earlier calls left there does not matter.  A call that is
interrupted by another one does matter: an interrupt handler that multiplies changes the result of the call it interrupts, in a way that is
stated here.
-/
namespace Saber.Props
open Polynomial
open Spec (negMul)

/-- Quarter `j` of a polynomial of 256 coefficients: 64 coefficients. -/
noncomputable def quarter (l : List (BitVec 16)) (j : Nat) : (BitVec 16)[X] := ∑ i ∈ Finset.range 64, C (l.getD (64 * j + i) 0) * X ^ i

/-- All 256 coefficients. -/
noncomputable def poly (l : List (BitVec 16)) : (BitVec 16)[X] := ∑ i ∈ Finset.range 256, C (l.getD i 0) * X ^ i

/-- Coefficient `k` of `p` modulo `X^256 + 1`, for `p` of degree below 512. -/
noncomputable def negacyclic (p : (BitVec 16)[X]) (k : Nat) : BitVec 16 := p.coeff k - p.coeff (256 + k)

/-- A handler that makes the calls `calls` of `pol_mul` when it is run before product `n`, and none at other times. -/
def handler (n : Nat) (calls : List (List (BitVec 16) × List (BitVec 16) × List (BitVec 16))) : M0.Interrupts :=
  fun m t => if m = n then M0.afterCalls M0.macWrap calls t else t

/-- What a handler whose last call multiplies by `b'` changes in the result of a call that it interrupts before product `n`. -/
noncomputable def interruptError (a b b' : List (BitVec 16)) : Nat → (BitVec 16)[X]
  | 1 => X ^ 192 * ((quarter b' 2 + quarter b' 3) - (quarter a 0 + quarter a 1 + quarter a 2 + quarter a 3)) *
      (quarter b 0 + quarter b 1 + quarter b 2 + quarter b 3)
  | 2 => (X ^ 128 - X ^ 192) * ((quarter b' 2 + quarter b' 3) - (quarter b 0 + quarter b 2)) * (quarter a 0 + quarter a 2)
  | 3 => (X ^ 256 - X ^ 192) * ((quarter b' 2 + quarter b' 3) - (quarter b 1 + quarter b 3)) * (quarter a 1 + quarter a 3)
  | 4 => (X ^ 64 - X ^ 192) * ((quarter b' 2 + quarter b' 3) - (quarter b 0 + quarter b 1)) * (quarter a 0 + quarter a 1)
  | 7 => (X ^ 320 - X ^ 192) * ((quarter b' 2 + quarter b' 3) - (quarter b 2 + quarter b 3)) * (quarter a 2 + quarter a 3)
  | _ => 0

theorem S_quarter (l : List (BitVec 16)) (j p : Nat) (hp : p = 64 * j) : S l p 64 = quarter l j := by
  subst hp; rfl

theorem slip_quiet (intr : M0.Interrupts) (a b : List (BitVec 16)) (n : Nat) (h : ∀ t, intr n t = t) :
    M0.slip intr 64 a 0 b 0 n = 0 := by
  unfold M0.slip
  rw [h, sub_self, zero_mul]

theorem S_scratch7 (a b : List (BitVec 16)) : S (M0.scratch 64 a 0 b 0 7) 0 64 = quarter b 2 + quarter b 3 := by
  unfold S quarter
  rw [← Finset.sum_add_distrib]
  refine Finset.sum_congr rfl fun i hi => ?_
  have hi := Finset.mem_range.1 hi
  rw [← add_mul, ← C_add]
  congr 2
  simp [M0.scratch, List.getD_eq_getElem?_getD, hi]

/-- The scratch array at the end of a call. -/
theorem length_scratch7 (a b : List (BitVec 16)) : (M0.scratch 64 a 0 b 0 7).length = 64 := by
  simp [M0.scratch]

theorem quiet_run (a b res t : List (BitVec 16)) (ha : a.length = 256) (hb : b.length = 256) (hr : res.length = 256) (ht : t.length = 64) :
    ∃ r, M0.pol_mulI M0.macWrap M0.quiet a b res t = .ok (r, M0.scratch 64 a 0 b 0 7) ∧ r.length = 256 ∧
      ∀ k, k < 256 → r.getD k 0 = res.getD k 0 + negacyclic (poly a * poly b) k := by
  obtain ⟨r, h1, h2, h3, h4⟩ := (M0.pol_mulI_spec M0.macWrap_spec (intr := M0.quiet) (fun _ _ h => h) ha hb hr ht).to_ok
  obtain ⟨r, t'⟩ := r
  have h4 : t' = _ := h4
  refine ⟨r, by rw [h1, h4]; rfl, h2, fun k hk => ?_⟩
  rw [h3 k hk]
  have e : M0.total M0.quiet 64 a 0 b 0 = poly a * poly b := by
    unfold M0.total
    simp only [slip_quiet M0.quiet a b _ (fun _ => rfl), mul_zero, add_zero]
    simp only [S, poly, Nat.zero_add, Nat.reduceMul]
  rw [e]
  rfl

/-- C90: whatever the scratch array holds when `pol_mul` is called (whatever was called before), the result is `res + a*b` modulo `2^16`
and `X^256 + 1`. -/
theorem C90_history (a b res t : List (BitVec 16)) (ha : a.length = 256) (hb : b.length = 256) (hr : res.length = 256) (ht : t.length = 64) :
    ∃ r t', M0.pol_mulI M0.macWrap M0.quiet a b res t = .ok (r, t') ∧ t'.length = 64 ∧ r.length = 256 ∧
      M0.pol_mul M0.macWrap a b res = .ok r ∧ ∀ k, k < 256 → r.getD k 0 = res.getD k 0 + negacyclic (poly a * poly b) k := by
  obtain ⟨r, h1, h2, h3⟩ := quiet_run a b res t ha hb hr ht
  obtain ⟨r', h4, h5, h6⟩ := (M0.pol_mul_spec M0.macWrap_spec ha hb hr).to_ok
  refine ⟨r, _, h1, length_scratch7 a b, h2, ?_, h3⟩
  rw [h4]
  refine congrArg Except.ok ?_
  apply List.ext_getElem (h5.trans h2.symm)
  intro k hk hk'
  rw [h5] at hk
  rw [← List.getD_eq_getElem _ 0 (by omega), ← List.getD_eq_getElem _ 0 (by omega), h3 k hk]
  have e := h6 ⟨k, hk⟩
  rw [← u16_eq_iff, u16_add, ← M0.negacyclic_coeff16] at e
  have e' : u16 (prom (r'.getD k 0)) = u16 (prom (res.getD k 0)) + _ := e
  rw [u16_prom, u16_prom] at e'
  rw [e', negacyclic, Nat.add_comm 256]
  simp only [S, poly, Nat.zero_add]

theorem afterCalls_last (calls : List (List (BitVec 16) × List (BitVec 16) × List (BitVec 16)))
    (hcalls : ∀ c ∈ calls, c.1.length = 256 ∧ c.2.1.length = 256 ∧ c.2.2.length = 256) : ∀ t : List (BitVec 16), t.length = 64 →
    M0.afterCalls M0.macWrap calls t = match calls.getLast? with
      | none => t
      | some c => M0.scratch 64 c.1 0 c.2.1 0 7 := by
  induction calls with
  | nil => intro t _; rfl
  | cons c cs ih =>
    intro t ht
    obtain ⟨a, b, res⟩ := c
    obtain ⟨h1, h2, h3⟩ := hcalls _ List.mem_cons_self
    obtain ⟨r, e, -⟩ := quiet_run a b res t h1 h2 h3 ht
    unfold M0.afterCalls
    rw [e]
    dsimp only
    rw [ih (fun c hc => hcalls c (List.mem_cons_of_mem _ hc)) _ (length_scratch7 a b)]
    cases cs with
    | nil => rfl
    | cons d ds => rw [List.getLast?_cons_cons]; cases hg : (d :: ds).getLast? with
      | none => simp at hg
      | some c => rfl

theorem afterCalls_length (calls : List (List (BitVec 16) × List (BitVec 16) × List (BitVec 16)))
    (hcalls : ∀ c ∈ calls, c.1.length = 256 ∧ c.2.1.length = 256 ∧ c.2.2.length = 256) (t : List (BitVec 16)) (ht : t.length = 64) :
    (M0.afterCalls M0.macWrap calls t).length = 64 := by
  rw [afterCalls_last calls hcalls t ht]
  split
  · exact ht
  · exact length_scratch7 _ _

theorem scratch_S (h : Nat) (F : Nat → BitVec 16) : S ((List.range h).map F) 0 h = ∑ i ∈ Finset.range h, C (F i) * X ^ i := by
  unfold S
  refine Finset.sum_congr rfl fun i hi => ?_
  have hi := Finset.mem_range.1 hi
  congr 2
  simp [List.getD_eq_getElem?_getD, hi]

/-- C90: a call of `pol_mul` that is interrupted before product `n` by a handler that makes any calls of `pol_mul`, the last of which
multiplies by `b'`, gives the right result plus `interruptError` (0 for the products 5, 6, 8 and 9). -/
theorem C90_interrupted (a b res t : List (BitVec 16)) (ha : a.length = 256) (hb : b.length = 256) (hr : res.length = 256)
    (ht : t.length = 64) (n : Nat) (calls : List (List (BitVec 16) × List (BitVec 16) × List (BitVec 16)))
    (hcalls : ∀ c ∈ calls, c.1.length = 256 ∧ c.2.1.length = 256 ∧ c.2.2.length = 256) (a' b' res' : List (BitVec 16))
    (hlast : calls.getLast? = some (a', b', res')) :
    ∃ r t', M0.pol_mulI M0.macWrap (handler n calls) a b res t = .ok (r, t') ∧ r.length = 256 ∧
      ∀ k, k < 256 → r.getD k 0 = res.getD k 0 + negacyclic (poly a * poly b + interruptError a b b' n) k := by
  obtain ⟨r, h1, h2, h3, h4⟩ := (M0.pol_mulI_spec M0.macWrap_spec (intr := handler n calls) (fun m t h => by
    unfold handler; split
    · exact afterCalls_length calls hcalls t h
    · exact h) ha hb hr ht).to_ok
  obtain ⟨r, t'⟩ := r
  refine ⟨r, t', h1, h2, fun k hk => ?_⟩
  rw [h3 k hk]
  have e : M0.total (handler n calls) 64 a 0 b 0 = poly a * poly b + interruptError a b b' n := by
    have q : ∀ m, m ≠ n → M0.slip (handler n calls) 64 a 0 b 0 m = 0 := fun m hm => slip_quiet _ a b m fun t => by
      unfold handler; rw [if_neg hm]
    have i : ∀ m t, m = n → t.length = 64 → S (handler n calls m t) 0 64 = quarter b' 2 + quarter b' 3 := fun m t hm ht => by
      unfold handler
      rw [if_pos hm, afterCalls_last calls hcalls t ht, hlast]
      dsimp only
      exact S_scratch7 a' b'
    have l : ∀ m, (M0.scratch 64 a 0 b 0 m).length = 64 := fun m => by unfold M0.scratch; split <;> simp
    have pp : S a 0 (4 * 64) * S b 0 (4 * 64) = poly a * poly b := by simp only [S, poly, Nat.zero_add, Nat.reduceMul]
    unfold M0.total
    rw [pp]
    have aux : ∀ (m : Nat) (F : (BitVec 16)[X]), m = n → M0.slip (handler n calls) 64 a 0 b 0 m =
        (S (handler n calls m (M0.scratch 64 a 0 b 0 m)) 0 64 - S (M0.scratch 64 a 0 b 0 m) 0 64) * F →
        M0.slip (handler n calls) 64 a 0 b 0 m = (quarter b' 2 + quarter b' 3 - S (M0.scratch 64 a 0 b 0 m) 0 64) * F := fun m F hm h => by
      rw [h, i m _ hm (l m)]
    have qa : ∀ l : List (BitVec 16), S l 0 64 = quarter l 0 ∧ S l (0 + 64) 64 = quarter l 1 ∧ S l (0 + 2 * 64) 64 = quarter l 2 ∧
        S l (0 + 3 * 64) 64 = quarter l 3 := fun l => ⟨S_quarter l 0 _ (by omega), S_quarter l 1 _ (by omega), S_quarter l 2 _ (by omega),
      S_quarter l 3 _ (by omega)⟩
    have s1 : S (M0.scratch 64 a 0 b 0 1) 0 64 = quarter a 0 + quarter a 1 + quarter a 2 + quarter a 3 := by
      rw [M0.scratch, scratch_S]
      simp only [C_add, add_mul, Finset.sum_add_distrib, quarter, Nat.zero_add, Nat.reduceMul]
      ring
    have s2 : S (M0.scratch 64 a 0 b 0 2) 0 64 = quarter b 0 + quarter b 2 := by
      rw [M0.scratch, scratch_S]
      simp only [C_add, add_mul, Finset.sum_add_distrib, quarter, Nat.zero_add, Nat.reduceMul]
    have s3 : S (M0.scratch 64 a 0 b 0 3) 0 64 = quarter b 1 + quarter b 3 := by
      rw [M0.scratch, scratch_S]
      simp only [C_add, add_mul, Finset.sum_add_distrib, quarter, Nat.zero_add, Nat.reduceMul]
    have s4 : S (M0.scratch 64 a 0 b 0 4) 0 64 = quarter b 0 + quarter b 1 := by
      rw [M0.scratch, scratch_S]
      simp only [C_add, add_mul, Finset.sum_add_distrib, quarter, Nat.zero_add, Nat.reduceMul]
    have s7 := S_scratch7 a b
    unfold interruptError
    split
    · rw [aux 1 (S b 0 64 + S b (0 + 64) 64 + S b (0 + 2 * 64) 64 + S b (0 + 3 * 64) 64) rfl (by unfold M0.slip; rfl), q 2 (by omega), q 3 (by omega), q 4 (by omega), q 7 (by omega), s1]
      simp only [(qa a).1, (qa a).2.1, (qa a).2.2.1, (qa a).2.2.2, (qa b).1, (qa b).2.1, (qa b).2.2.1, (qa b).2.2.2]
      simp only [Nat.reduceMul]; ring
    · rw [aux 2 (S a 0 64 + S a (0 + 2 * 64) 64) rfl (by unfold M0.slip; rfl), q 1 (by omega), q 3 (by omega), q 4 (by omega), q 7 (by omega), s2]
      simp only [(qa a).1, (qa a).2.1, (qa a).2.2.1, (qa a).2.2.2, (qa b).1, (qa b).2.1, (qa b).2.2.1, (qa b).2.2.2]
      simp only [Nat.reduceMul]; ring
    · rw [aux 3 (S a (0 + 64) 64 + S a (0 + 3 * 64) 64) rfl (by unfold M0.slip; rfl), q 1 (by omega), q 2 (by omega), q 4 (by omega), q 7 (by omega), s3]
      simp only [(qa a).1, (qa a).2.1, (qa a).2.2.1, (qa a).2.2.2, (qa b).1, (qa b).2.1, (qa b).2.2.1, (qa b).2.2.2]
      simp only [Nat.reduceMul]; ring
    · rw [aux 4 (S a 0 64 + S a (0 + 64) 64) rfl (by unfold M0.slip; rfl), q 1 (by omega), q 2 (by omega), q 3 (by omega), q 7 (by omega), s4]
      simp only [(qa a).1, (qa a).2.1, (qa a).2.2.1, (qa a).2.2.2, (qa b).1, (qa b).2.1, (qa b).2.2.1, (qa b).2.2.2]
      simp only [Nat.reduceMul]; ring
    · rw [aux 7 (S a (0 + 2 * 64) 64 + S a (0 + 3 * 64) 64) rfl (by unfold M0.slip; rfl), q 1 (by omega), q 2 (by omega), q 3 (by omega), q 4 (by omega), s7]
      simp only [(qa a).1, (qa a).2.1, (qa a).2.2.1, (qa a).2.2.2, (qa b).1, (qa b).2.1, (qa b).2.2.1, (qa b).2.2.2]
      simp only [Nat.reduceMul]; ring
    · rename_i n1 n2 n3 n4 n7
      rw [q 1 (Ne.symm n1), q 2 (Ne.symm n2), q 3 (Ne.symm n3), q 4 (Ne.symm n4), q 7 (Ne.symm n7)]
      ring
  rw [e]
  rfl

/-- C90: at the other moments (also after the last use of the array) the interruption does no harm. -/
theorem C90_harmless (a b res t : List (BitVec 16)) (ha : a.length = 256) (hb : b.length = 256) (hr : res.length = 256)
    (ht : t.length = 64) (n : Nat) (hn : n = 5 ∨ n = 6 ∨ n = 8 ∨ n = 9) (calls : List (List (BitVec 16) × List (BitVec 16) × List (BitVec 16)))
    (hcalls : ∀ c ∈ calls, c.1.length = 256 ∧ c.2.1.length = 256 ∧ c.2.2.length = 256) :
    ∃ r t', M0.pol_mulI M0.macWrap (handler n calls) a b res t = .ok (r, t') ∧ M0.pol_mul M0.macWrap a b res = .ok r := by
  obtain ⟨r, t1, e1, -, l1, e2, h⟩ := C90_history a b res t ha hb hr ht
  cases hl : calls.getLast? with
  | none =>
    rw [List.getLast?_eq_none_iff] at hl
    subst hl
    have : handler n [] = M0.quiet := by
      funext m u; unfold handler M0.quiet M0.afterCalls; split <;> rfl
    rw [this]
    exact ⟨r, t1, e1, e2⟩
  | some c =>
    obtain ⟨r', t', e3, l3, h3⟩ := C90_interrupted a b res t ha hb hr ht n calls hcalls c.1 c.2.1 c.2.2 hl
    refine ⟨r', t', e3, ?_⟩
    rw [e2]
    refine congrArg Except.ok ?_
    apply List.ext_getElem (l1.trans l3.symm)
    intro k hk hk'
    rw [← List.getD_eq_getElem _ 0 (by omega), ← List.getD_eq_getElem _ 0 (by omega), h k (by omega), h3 k (by omega)]
    have : interruptError a b c.2.1 n = 0 := by
      rcases hn with rfl | rfl | rfl | rfl <;> rfl
    rw [this, add_zero]

/-- `1 + X^64 + X^128` -/
def wit : List (BitVec 16) := (List.range 256).map fun i => if i = 0 ∨ i = 64 ∨ i = 128 then 1 else 0

theorem wit_quarter (j : Nat) (hj : j < 4) : quarter wit j = C (if j < 3 then 1 else 0) := by
  have h : ∀ j < 4, ∀ i < 64, wit.getD (64 * j + i) 0 = if i = 0 then (if j < 3 then 1 else 0) else 0 := by decide +kernel
  unfold quarter
  rw [Finset.sum_eq_single 0]
  · rw [h j hj 0 (by omega)]; simp
  · intro i hi h0
    rw [h j hj i (Finset.mem_range.1 hi), if_neg h0]
    show C (0 : BitVec 16) * X ^ i = 0
    rw [C_0, zero_mul]
  · simp

theorem zero_quarter (j : Nat) (hj : j < 4) : quarter (List.replicate 256 0) j = 0 := by
  unfold quarter
  refine Finset.sum_eq_zero fun i hi => ?_
  rw [List.getD_replicate _ (by have := Finset.mem_range.1 hi; omega)]
  show C (0 : BitVec 16) * X ^ i = 0
  rw [C_0, zero_mul]

/-- C90: `pol_mul` is not reentrant: at each of the five moments there is a handler, which multiplies once, that makes the result of the
interrupted call wrong. -/
theorem C90_not_reentrant (n : Nat) (hn : n = 1 ∨ n = 2 ∨ n = 3 ∨ n = 4 ∨ n = 7) : ∃ a b res t r t',
    M0.pol_mulI M0.macWrap (handler n [(List.replicate 256 0, List.replicate 256 0, List.replicate 256 0)]) a b res t = .ok (r, t') ∧
    M0.pol_mul M0.macWrap a b res ≠ .ok r := by
  obtain ⟨r, t1, -, -, l1, e2, h⟩ := C90_history wit wit (List.replicate 256 0) (List.replicate 64 0) (by decide +kernel) (by decide +kernel)
    List.length_replicate List.length_replicate
  obtain ⟨r', t', e3, l3, h3⟩ := C90_interrupted wit wit (List.replicate 256 0) (List.replicate 64 0) (by decide +kernel) (by decide +kernel)
    List.length_replicate List.length_replicate n [(List.replicate 256 0, List.replicate 256 0, List.replicate 256 0)]
    (fun c hc => by
      rw [List.mem_singleton] at hc; subst hc
      exact ⟨List.length_replicate, List.length_replicate, List.length_replicate⟩) (List.replicate 256 0) (List.replicate 256 0) (List.replicate 256 0) rfl
  refine ⟨wit, wit, _, _, r', t', e3, fun e => ?_⟩
  rw [e2] at e
  have e : r = r' := Except.ok.inj e
  have h := h 192 (by omega)
  have h3 := h3 192 (by omega)
  rw [e, h3] at h
  have h := add_left_cancel h
  unfold negacyclic at h
  rw [coeff_add, coeff_add] at h
  have hz : (interruptError wit wit (List.replicate 256 0) n).coeff 192 - (interruptError wit wit (List.replicate 256 0) n).coeff 448 = 0 := by
    have := sub_eq_zero.2 h
    rw [add_sub_add_comm, add_sub_cancel_left] at this
    exact this
  have key : ∀ (m : Nat) (x : BitVec 16) , (X ^ m * C x : (BitVec 16)[X]).coeff 192 = if m = 192 then x else 0 := by
    intro m x
    rw [mul_comm, coeff_C_mul_X_pow]; simp [eq_comm]
  have key' : ∀ (m : Nat) (x : BitVec 16) , (X ^ m * C x : (BitVec 16)[X]).coeff 448 = if m = 448 then x else 0 := by
    intro m x
    rw [mul_comm, coeff_C_mul_X_pow]; simp [eq_comm]
  unfold interruptError at hz
  rcases hn with rfl | rfl | rfl | rfl | rfl <;>
    simp only [wit_quarter _ (show 0 < 4 by omega), wit_quarter _ (show 1 < 4 by omega), wit_quarter _ (show 2 < 4 by omega),
      wit_quarter _ (show 3 < 4 by omega), zero_quarter _ (show 2 < 4 by omega), zero_quarter _ (show 3 < 4 by omega), ← C_add, ← C_0, ← C_sub,
      mul_assoc, ← C_mul, sub_mul, coeff_sub, key, key', Nat.reduceEqDiff, if_true, if_false] at hz <;>
    exact absurd hz (by decide)

/-- The hypotheses are met by a handler that makes two calls. -/
example : ∃ r t', M0.pol_mulI M0.macWrap (handler 2 [(wit, wit, wit), (wit, List.replicate 256 7, wit)]) wit (List.replicate 256 3) wit
    (List.replicate 64 9) = .ok (r, t') ∧ r.getD 0 0 = wit.getD 0 0 +
      negacyclic (poly wit * poly (List.replicate 256 3) + interruptError wit (List.replicate 256 3) (List.replicate 256 7) 2) 0 := by
  have lw : wit.length = 256 := by decide +kernel
  obtain ⟨r, t', e, -, h⟩ := C90_interrupted wit (List.replicate 256 3) wit (List.replicate 64 9) lw List.length_replicate lw
    List.length_replicate 2 [(wit, wit, wit), (wit, List.replicate 256 7, wit)] (fun c hc => by
      rcases List.mem_cons.1 hc with hc | hc
      · subst hc; exact ⟨lw, lw, lw⟩
      · rw [List.mem_singleton] at hc; subst hc; exact ⟨lw, List.length_replicate, lw⟩) wit (List.replicate 256 7) wit rfl
  exact ⟨r, t', e, h 0 (by omega)⟩

end Saber.Props
