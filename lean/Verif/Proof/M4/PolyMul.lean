import Verif.Model.M4.PolyMul
import Verif.Proof.Toom
import Verif.Proof.M0.Stream
import Mathlib.Algebra.Polynomial.Expand
/-!
# Cortex-M4: the striding Toom-Cook multiplication
-/
namespace Saber.M4
open Polynomial
open M0 (getD_writeAt)

/-! ### Arithmetic of the interpolation -/

/-- Shifting the wrapped signed product and truncating gives the same 16 bits as the unsigned computation. -/
theorem mulShiftI_wrap (t : Int) (inv : BitVec 16) (k : Nat) (hk : k ≤ 3) :
    mulShiftI .wrap t (prom inv) k = .ok (mulShift t inv k) := by
  show Except.ok (u16 (isar (BitVec.ofInt 32 (t * prom inv)).toInt k)) = .ok (mulShift t inv k)
  unfold mulShift
  congr 1
  have e : BitVec.ofInt 32 (t * prom inv) = u32 t * inv.setWidth 32 := by
    rw [BitVec.ofInt_mul]
    congr 1
    apply BitVec.eq_of_toNat_eq
    have := inv.isLt
    simp only [prom, BitVec.toNat_ofInt, BitVec.toNat_setWidth]
    omega
  rw [e]
  generalize u32 t * inv.setWidth 32 = x
  apply BitVec.eq_of_toNat_eq
  have hx := x.isLt
  simp only [u16, isar, BitVec.toNat_ofInt, BitVec.toNat_setWidth, BitVec.toNat_ushiftRight, Nat.shiftRight_eq_div_pow]
  rw [BitVec.toInt_eq_toNat_cond]
  interval_cases k <;> split <;> omega

theorem interp_wrap (r0 r1 r2 r3 r4 r5 r6 : BitVec 16) :
    interp .wrap r0 r1 r2 r3 r4 r5 r6 = toomInterp r0 r1 r2 r3 r4 r5 r6 := by
  have e1 (t : Int) : mulShiftI .wrap t 43691 3 = .ok (mulShift t inv3 3) := mulShiftI_wrap t inv3 3 (by omega)
  have e2 (t : Int) : mulShiftI .wrap t 36409 1 = .ok (mulShift t inv9 1) := mulShiftI_wrap t inv9 1 (by omega)
  have e3 (t : Int) : mulShiftI .wrap t 61167 2 = .ok (mulShift t inv15 2) := mulShiftI_wrap t inv15 2 (by omega)
  simp only [interp, toomInterp, e1, e2, e3, ok_bind]

theorem evalPt_ok (r0 r1 r2 r3 : R16) : evalPt r0 r1 r2 r3 = .ok
    { w1 := r3, w2 := r0 + 2 * r1 + 4 * r2 + 8 * r3, w3 := r0 + r1 + r2 + r3, w4 := r0 - r1 + r2 - r3,
      w5 := 8 * r0 + 4 * r1 + 2 * r2 + r3, w6 := 8 * r0 - 4 * r1 + 2 * r2 - r3, w7 := r0 } := toomEval_ok r0 r1 r2 r3

/-! ### Striding -/

/-- `a[r] + a[4+r] y + a[8+r] y^2 + ...` -/
noncomputable def S4 (a : List R16) (r : Nat) : R16[X] := ∑ j ∈ Finset.range 64, C (a.getD (4 * j + r) 0) * X ^ j

theorem S4_coeff (a : List R16) (r k : Nat) (hk : k < 64) : (S4 a r).coeff k = a.getD (4 * k + r) 0 := by
  unfold S4
  rw [finsetSum_coeff, Finset.sum_eq_single k]
  · simp
  · intro i _ hi; rw [coeff_C_mul_X_pow, if_neg (Ne.symm hi)]
  · intro h; exact absurd (Finset.mem_range.2 hk) h

theorem Deg.S4 (a : List R16) (r : Nat) : Deg (S4 a r) 64 := by
  intro k hk
  unfold M4.S4
  rw [finsetSum_coeff]
  refine Finset.sum_eq_zero fun i hi => ?_
  rw [coeff_C_mul_X_pow, if_neg (by have := Finset.mem_range.1 hi; omega)]

theorem sum_range_four {M : Type} [AddCommMonoid M] (n : Nat) (f : Nat → M) :
    ∑ i ∈ Finset.range (4 * n), f i = ∑ j ∈ Finset.range n, (f (4 * j) + f (4 * j + 1) + f (4 * j + 2) + f (4 * j + 3)) := by
  induction n with
  | zero => simp
  | succ n ih =>
    rw [show 4 * (n + 1) = 4 * n + 1 + 1 + 1 + 1 by ring, Finset.sum_range_succ, Finset.sum_range_succ, Finset.sum_range_succ,
      Finset.sum_range_succ, ih, Finset.sum_range_succ]
    simp only [add_assoc]

theorem S_eq_S4 (a : List R16) : S a 0 256 = expand R16 4 (S4 a 0) + X * expand R16 4 (S4 a 1) + X ^ 2 * expand R16 4 (S4 a 2)
    + X ^ 3 * expand R16 4 (S4 a 3) := by
  unfold S S4
  rw [show (256 : Nat) = 4 * 64 from rfl, sum_range_four]
  simp only [map_sum, map_mul, expand_C, map_pow, expand_X, Finset.mul_sum, ← Finset.sum_add_distrib, Nat.zero_add, Nat.add_zero]
  refine Finset.sum_congr rfl fun j _ => ?_
  ring

/-- Reduction modulo `y^64 + 1` of a polynomial of degree less than 128. -/
noncomputable def nega (p : R16[X]) : R16[X] := ∑ i ∈ Finset.range 64, C (p.coeff i - p.coeff (i + 64)) * X ^ i

theorem nega_coeff (p : R16[X]) (k : Nat) (hk : k < 64) : (nega p).coeff k = p.coeff k - p.coeff (k + 64) := by
  unfold nega
  rw [finsetSum_coeff, Finset.sum_eq_single k]
  · rw [coeff_C_mul_X_pow, if_pos rfl]
  · intro i _ hi; rw [coeff_C_mul_X_pow, if_neg (Ne.symm hi)]
  · intro h; exact absurd (Finset.mem_range.2 hk) h

/-- What `kara_strd_mem_asm` has to do: the product modulo `y^64 + 1` and `2^16`; the operands may be overwritten. -/
def KaraOk (kara : Kara) : Prop := ∀ k : K4, k.a.length = 64 → k.b.length = 64 → k.res.length = 64 → k.tmp.length = 64 →
  Ok (kara k) fun r => r.a.length = 64 ∧ r.b.length = 64 ∧ r.res.length = 64 ∧ r.tmp.length = 64 ∧
    ∀ i, i < 64 → r.res.getD i 0 = (S k.a 0 64 * S k.b 0 64).coeff i - (S k.a 0 64 * S k.b 0 64).coeff (i + 64)

/-- The seven evaluations, in the order of the scratch space. -/
noncomputable def evSlot (A0 A1 A2 A3 : R16[X]) : Nat → R16[X]
  | 0 => A3
  | 1 => A0 + 2 * A1 + 4 * A2 + 8 * A3
  | 2 => A0 + A1 + A2 + A3
  | 3 => A0 - A1 + A2 - A3
  | 4 => 8 * A0 + 4 * A1 + 2 * A2 + A3
  | 5 => 8 * A0 - 4 * A1 + 2 * A2 - A3
  | _ => A0

theorem S_eq_iff (a : List R16) (off : Nat) (p : R16[X]) (hp : Deg p 64) (h : ∀ k, k < 64 → a.getD (off + k) 0 = p.coeff k) :
    S a off 64 = p := by
  ext1 k
  rw [S_coeff]
  split
  · rw [h k (by assumption)]
  · rw [hp k (by omega)]

theorem S_getD (a : List R16) (off : Nat) {p : R16[X]} (h : S a off 64 = p) (k : Nat) (hk : k < 64) :
    a.getD (off + k) 0 = p.coeff k := by rw [← h, S_coeff, if_pos hk]

theorem Deg.evSlot {A0 A1 A2 A3 : R16[X]} (h0 : Deg A0 64) (h1 : Deg A1 64) (h2 : Deg A2 64) (h3 : Deg A3 64) (m : Nat) :
    Deg (evSlot A0 A1 A2 A3 m) 64 := by
  unfold M4.evSlot
  split
  · exact h3
  · exact ((h0.add (h1.ofNat_mul 2)).add (h2.ofNat_mul 4)).add (h3.ofNat_mul 8)
  · exact ((h0.add h1).add h2).add h3
  · exact ((h0.sub h1).add h2).sub h3
  · exact (((h0.ofNat_mul 8).add (h1.ofNat_mul 4)).add (h2.ofNat_mul 2)).add h3
  · exact (((h0.ofNat_mul 8).sub (h1.ofNat_mul 4)).add (h2.ofNat_mul 2)).sub h3
  · exact h0

theorem evalA_ok {a stack : List R16} (ha : a.length = 256) (hs : stack.length = 832) :
    Ok (evalA a stack) fun s => s.length = 832 ∧
      ∀ m, m < 7 → S s (m * 64) 64 = evSlot (S4 a 0) (S4 a 1) (S4 a 2) (S4 a 3) m := by
  unfold evalA
  have H := loop_inv (n := 64) (s := stack) (body := fun j stack => do
    let r0 ← rd a (4 * j)
    let r1 ← rd a (4 * j + 1)
    let r2 ← rd a (4 * j + 2)
    let r3 ← rd a (4 * j + 3)
    let e ← evalPt r0 r1 r2 r3
    let stack ← wr stack (2 * 64 + j) e.w3
    let stack ← wr stack (3 * 64 + j) e.w4
    let stack ← wr stack (4 * 64 + j) e.w5
    let stack ← wr stack (5 * 64 + j) e.w6
    let stack ← wr stack (64 + j) e.w2
    let stack ← wr stack (6 * 64 + j) e.w7
    wr stack j e.w1) (fun j s => s.length = 832 ∧ ∀ m, m < 7 → ∀ k, k < j →
      s.getD (m * 64 + k) 0 = (evSlot (S4 a 0) (S4 a 1) (S4 a 2) (S4 a 3) m).coeff k) ⟨hs, fun m _ k hk => by omega⟩ ?_
  · refine H.mono fun s h => ⟨h.1, fun m hm => S_eq_iff s _ _ (Deg.evSlot (Deg.S4 _ _) (Deg.S4 _ _) (Deg.S4 _ _) (Deg.S4 _ _) m) (h.2 m hm)⟩
  · rintro j s hj ⟨hl, h⟩
    rw [rd_ok 0 (by omega), ok_bind, rd_ok 0 (by omega), ok_bind, rd_ok 0 (by omega), ok_bind, rd_ok 0 (by omega), ok_bind,
      evalPt_ok, ok_bind]
    dsimp only
    rw [wr_ok (by omega), ok_bind, wr_ok (by simp only [List.length_set]; omega), ok_bind,
      wr_ok (by simp only [List.length_set]; omega), ok_bind, wr_ok (by simp only [List.length_set]; omega), ok_bind,
      wr_ok (by simp only [List.length_set]; omega), ok_bind, wr_ok (by simp only [List.length_set]; omega), ok_bind,
      wr_ok (by simp only [List.length_set]; omega)]
    refine Ok.pure ⟨by simp only [List.length_set]; exact hl, fun m hm k hk => ?_⟩
    simp only [getD_set, List.length_set]
    by_cases e : k = j
    · subst e
      have c0 := S4_coeff a 0 k hj
      have c1 := S4_coeff a 1 k hj
      have c2 := S4_coeff a 2 k hj
      have c3 := S4_coeff a 3 k hj
      rw [Nat.add_zero] at c0
      rw [← c0, ← c1, ← c2, ← c3]
      interval_cases m <;> simp (disch := omega) only [if_pos, if_neg, evSlot, coeff_add, coeff_sub, coeff_two_mul, coeff_four_mul, coeff_eight_mul] <;>
        exact if_pos ⟨trivial, by omega⟩
    · rw [← h m hm k (by omega)]
      simp (disch := omega) only [if_neg]

theorem evalB_ok {b stack : List R16} (hb : b.length = 256) (hs : stack.length = 832) :
    Ok (evalB b stack) fun r => r.1.length = 256 ∧ r.2.length = 832 ∧ S r.1 0 64 = S4 b 3 ∧
      (∀ m, m < 6 → S r.2 ((m + 7) * 64) 64 = evSlot (S4 b 0) (S4 b 1) (S4 b 2) (S4 b 3) (m + 1)) ∧
      ∀ m, m < 7 → S r.2 (m * 64) 64 = S stack (m * 64) 64 := by
  unfold evalB
  have H := loop_inv (n := 64) (s := (b, stack)) (body := fun j (b, stack) => do
    let r0 ← rd b (4 * j)
    let r1 ← rd b (4 * j + 1)
    let r2 ← rd b (4 * j + 2)
    let r3 ← rd b (4 * j + 3)
    let e ← evalPt r0 r1 r2 r3
    let stack ← wr stack (8 * 64 + j) e.w3
    let stack ← wr stack (9 * 64 + j) e.w4
    let stack ← wr stack (10 * 64 + j) e.w5
    let stack ← wr stack (11 * 64 + j) e.w6
    let stack ← wr stack (7 * 64 + j) e.w2
    let stack ← wr stack (12 * 64 + j) e.w7
    let b ← wr b j e.w1
    pure (b, stack)) (fun j r => (r.1.length = 256 ∧ r.2.length = 832) ∧
      (∀ k, k < j → r.1.getD k 0 = (S4 b 3).coeff k) ∧ (∀ k, j ≤ k → r.1.getD k 0 = b.getD k 0) ∧
      (∀ m, m < 6 → ∀ k, k < j → r.2.getD ((m + 7) * 64 + k) 0 = (evSlot (S4 b 0) (S4 b 1) (S4 b 2) (S4 b 3) (m + 1)).coeff k) ∧
      ∀ k, k < 448 → r.2.getD k 0 = stack.getD k 0)
    ⟨⟨hb, hs⟩, fun k hk => by omega, fun k _ => rfl, fun m _ k hk => by omega, fun k _ => rfl⟩ ?_
  · refine H.mono fun r h => ⟨h.1.1, h.1.2, S_eq_iff _ _ _ (Deg.S4 _ _) (fun k hk => by rw [Nat.zero_add, h.2.1 k hk]), fun m hm =>
      S_eq_iff _ _ _ (Deg.evSlot (Deg.S4 _ _) (Deg.S4 _ _) (Deg.S4 _ _) (Deg.S4 _ _) _) (h.2.2.2.1 m hm), fun m hm => ?_⟩
    refine S_eq_iff _ _ _ (Deg.S _ _ _) fun k hk => ?_
    rw [S_coeff, if_pos hk, h.2.2.2.2 _ (by omega)]
  · rintro j ⟨b', s⟩ hj ⟨⟨hl1, hl⟩, hb1, hb2, h, hlow⟩
    dsimp only at hl1 hl hb1 hb2 h hlow ⊢
    rw [rd_ok 0 (by omega), ok_bind, rd_ok 0 (by omega), ok_bind, rd_ok 0 (by omega), ok_bind, rd_ok 0 (by omega), ok_bind,
      evalPt_ok, ok_bind]
    dsimp only
    rw [wr_ok (by omega), ok_bind, wr_ok (by simp only [List.length_set]; omega), ok_bind,
      wr_ok (by simp only [List.length_set]; omega), ok_bind, wr_ok (by simp only [List.length_set]; omega), ok_bind,
      wr_ok (by simp only [List.length_set]; omega), ok_bind, wr_ok (by simp only [List.length_set]; omega), ok_bind,
      wr_ok (by omega), ok_bind]
    rw [hb2 _ (by omega), hb2 _ (by omega), hb2 _ (by omega), hb2 _ (by omega)]
    have c0 := S4_coeff b 0 j hj
    have c1 := S4_coeff b 1 j hj
    have c2 := S4_coeff b 2 j hj
    have c3 := S4_coeff b 3 j hj
    rw [Nat.add_zero] at c0
    rw [← c0, ← c1, ← c2, ← c3]
    refine Ok.pure ⟨⟨by simp only [List.length_set]; exact hl1, by simp only [List.length_set]; exact hl⟩,
      fun k hk => ?_, fun k hk => ?_, fun m hm k hk => ?_, fun k hk => ?_⟩
    · dsimp only
      rw [getD_set]
      by_cases e : j = k
      · subst e; rw [if_pos ⟨rfl, by omega⟩]
      · rw [if_neg (by omega), hb1 k (by omega)]
    · dsimp only
      rw [getD_set, if_neg (by omega), hb2 k (by omega)]
    · simp only [getD_set, List.length_set]
      by_cases e : k = j
      · subst e
        interval_cases m <;> simp (disch := omega) only [if_pos, if_neg, evSlot, coeff_add, coeff_sub, coeff_two_mul, coeff_four_mul, coeff_eight_mul] <;>
        exact if_pos ⟨trivial, by omega⟩
      · rw [← h m hm k (by omega)]
        simp (disch := omega) only [if_neg]
    · simp (disch := omega) only [getD_set, List.length_set, if_neg, hlow k hk]

/-! ### The seven products -/

theorem sub64_ok (a : List R16) (off : Nat) (h : off + 64 ≤ a.length) :
    sub64 a off = .ok ((a.drop off).take 64) := if_pos h

theorem S_sub (a : List R16) (off : Nat) : S ((a.drop off).take 64) 0 64 = S a off 64 := by
  refine S_eq_iff _ _ _ (Deg.S _ _ _) fun k hk => ?_
  rw [S_coeff, if_pos hk, Nat.zero_add, getD_take _ _ _ _ hk, getD_drop]

theorem length_sub (a : List R16) (off : Nat) (h : off + 64 ≤ a.length) : ((a.drop off).take 64).length = 64 := by simp; omega

theorem S_writeAt_same (a vs : List R16) (off : Nat) (hv : vs.length = 64) (h : off + 64 ≤ a.length) :
    S (writeAt a off vs) off 64 = S vs 0 64 := by
  refine S_eq_iff _ _ _ (Deg.S _ _ _) fun k hk => ?_
  rw [S_coeff, if_pos hk, getD_writeAt _ _ _ _ (by omega), if_pos (by omega)]
  congr 1; omega

theorem S_writeAt_disj (a vs : List R16) (off off' : Nat) (hv : vs.length = 64) (h : off + 64 ≤ a.length)
    (hd : off + 64 ≤ off' ∨ off' + 64 ≤ off) : S (writeAt a off vs) off' 64 = S a off' 64 := by
  refine S_eq_iff _ _ _ (Deg.S _ _ _) fun k hk => ?_
  rw [S_coeff, if_pos hk, getD_writeAt _ _ _ _ (by omega), if_neg (by omega)]

theorem len_writeAt64 (a vs : List R16) (off : Nat) (hv : vs.length = 64) (h : off + 64 ≤ a.length) :
    (writeAt a off vs).length = a.length := length_writeAt _ _ _ (by omega)

theorem Deg.nega (p : R16[X]) : Deg (nega p) 64 := by
  intro k hk
  unfold M4.nega
  rw [finsetSum_coeff]
  refine Finset.sum_eq_zero fun i hi => ?_
  rw [coeff_C_mul_X_pow, if_neg (by have := Finset.mem_range.1 hi; omega)]

theorem KaraOk.S {kara : Kara} (hk : KaraOk kara) (a b c t : List R16) (oa ob oc ot : Nat) (ha : oa + 64 ≤ a.length)
    (hb : ob + 64 ≤ b.length) (hc : oc + 64 ≤ c.length) (ht : ot + 64 ≤ t.length) :
    Ok (kara ⟨(a.drop oa).take 64, (b.drop ob).take 64, (c.drop oc).take 64, (t.drop ot).take 64⟩) fun r =>
      r.a.length = 64 ∧ r.b.length = 64 ∧ r.res.length = 64 ∧ r.tmp.length = 64 ∧
      S r.res 0 64 = nega (S a oa 64 * S b ob 64) := by
  refine (hk _ (length_sub a oa ha) (length_sub b ob hb) (length_sub c oc hc) (length_sub t ot ht)).mono
    fun r h => ⟨h.1, h.2.1, h.2.2.1, h.2.2.2.1, ?_⟩
  refine S_eq_iff _ _ _ (Deg.nega _) fun k hk => ?_
  rw [Nat.zero_add, h.2.2.2.2 k hk, nega_coeff _ _ hk]
  simp only [S_sub]

theorem mul1_ok {kara : Kara} (hk : KaraOk kara) {b stack : List R16} (hb : b.length = 256) (hs : stack.length = 832) :
    Ok (mul1 kara b stack) fun r => r.1.length = 256 ∧ r.2.length = 832 ∧
      S r.1 64 64 = nega (S stack 0 64 * S b 0 64) ∧ ∀ m, 1 ≤ m → S r.2 (m * 64) 64 = S stack (m * 64) 64 := by
  unfold mul1
  rw [sub64_ok _ _ (by omega), ok_bind, sub64_ok _ _ (by omega), ok_bind, sub64_ok _ _ (by omega), ok_bind,
    sub64_ok _ _ (by omega), ok_bind]
  refine (hk.S stack b b b 0 0 64 128 (by omega) (by omega) (by omega) (by omega)).bind fun r ⟨h1, h2, h3, h4, h5⟩ => ?_
  have l1 := len_writeAt64 b r.b 0 h2 (by omega)
  have l2 := len_writeAt64 (writeAt b 0 r.b) r.res 64 h3 (by omega)
  have l3 := len_writeAt64 (writeAt (writeAt b 0 r.b) 64 r.res) r.tmp 128 h4 (by omega)
  have l4 := len_writeAt64 stack r.a 0 h1 (by omega)
  refine Ok.pure ⟨by dsimp only; omega, by dsimp only; omega, ?_, fun m hm => ?_⟩
  · rw [S_writeAt_disj _ _ _ _ h4 (by omega) (by omega), S_writeAt_same _ _ _ h3 (by omega), h5]
  · rw [S_writeAt_disj _ _ _ _ h1 (by omega) (by omega)]

theorem mul2_ok {kara : Kara} (hk : KaraOk kara) {b stack : List R16} (hb : b.length = 256) (hs : stack.length = 832) :
    Ok (mul2 kara b stack) fun r => r.1.length = 256 ∧ r.2.length = 832 ∧
      S r.1 0 64 = nega (S stack 64 64 * S stack (7 * 64) 64) ∧ S r.1 64 64 = S b 64 64 ∧
      ∀ m, m ≠ 1 → m ≠ 7 → S r.2 (m * 64) 64 = S stack (m * 64) 64 := by
  unfold mul2
  rw [sub64_ok _ _ (by omega), ok_bind, sub64_ok _ _ (by omega), ok_bind, sub64_ok _ _ (by omega), ok_bind,
    sub64_ok _ _ (by omega), ok_bind]
  refine (hk.S stack stack b b 64 (7 * 64) 0 128 (by omega) (by omega) (by omega) (by omega)).bind fun r ⟨h1, h2, h3, h4, h5⟩ => ?_
  have l1 := len_writeAt64 b r.res 0 h3 (by omega)
  have l2 := len_writeAt64 (writeAt b 0 r.res) r.tmp 128 h4 (by omega)
  have l3 := len_writeAt64 stack r.a 64 h1 (by omega)
  have l4 := len_writeAt64 (writeAt stack 64 r.a) r.b (7 * 64) h2 (by omega)
  refine Ok.pure ⟨by dsimp only; omega, by dsimp only; omega, ?_, ?_, fun m hm hm' => ?_⟩
  · rw [S_writeAt_disj _ _ _ _ h4 (by omega) (by omega), S_writeAt_same _ _ _ h3 (by omega), h5]
  · rw [S_writeAt_disj _ _ _ _ h4 (by omega) (by omega), S_writeAt_disj _ _ _ _ h3 (by omega) (by omega)]
  · rw [S_writeAt_disj _ _ _ _ h2 (by omega) (by omega), S_writeAt_disj _ _ _ _ h1 (by omega) (by omega)]

theorem mulK_ok {kara : Kara} (hk : KaraOk kara) (k : Nat) (hk2 : k ≤ 6) {b stack : List R16} (hb : b.length = 256)
    (hs : stack.length = 832) :
    Ok (mulK kara k b stack) fun r => r.1.length = 256 ∧ r.2.length = 832 ∧
      S r.1 0 64 = S b 0 64 ∧ S r.1 64 64 = S b 64 64 ∧
      S r.2 ((k + 5) * 64) 64 = nega (S stack (k * 64) 64 * S stack ((k + 6) * 64) 64) ∧
      ∀ m, m ≠ k → m ≠ k + 5 → m ≠ k + 6 → S r.2 (m * 64) 64 = S stack (m * 64) 64 := by
  unfold mulK
  rw [sub64_ok _ _ (by omega), ok_bind, sub64_ok _ _ (by omega), ok_bind, sub64_ok _ _ (by omega), ok_bind,
    sub64_ok _ _ (by omega), ok_bind]
  refine (hk.S stack stack stack b (k * 64) ((k + 6) * 64) ((k + 5) * 64) 128 (by omega) (by omega) (by omega) (by omega)).bind
    fun r ⟨h1, h2, h3, h4, h5⟩ => ?_
  have l1 := len_writeAt64 b r.tmp 128 h4 (by omega)
  have l2 := len_writeAt64 stack r.a (k * 64) h1 (by omega)
  have l3 := len_writeAt64 (writeAt stack (k * 64) r.a) r.b ((k + 6) * 64) h2 (by omega)
  have l4 := len_writeAt64 (writeAt (writeAt stack (k * 64) r.a) ((k + 6) * 64) r.b) r.res ((k + 5) * 64) h3 (by omega)
  refine Ok.pure ⟨by dsimp only; omega, by dsimp only; omega, ?_, ?_, ?_, fun m hm hm' hm'' => ?_⟩
  · rw [S_writeAt_disj _ _ _ _ h4 (by omega) (by omega)]
  · rw [S_writeAt_disj _ _ _ _ h4 (by omega) (by omega)]
  · rw [S_writeAt_same _ _ _ h3 (by omega), h5]
  · rw [S_writeAt_disj _ _ _ _ h3 (by omega) (by omega), S_writeAt_disj _ _ _ _ h2 (by omega) (by omega),
      S_writeAt_disj _ _ _ _ h1 (by omega) (by omega)]

/-! ### Interpolation -/

theorem nega_add (p q : R16[X]) : nega (p + q) = nega p + nega q := by
  unfold nega
  rw [← Finset.sum_add_distrib]
  refine Finset.sum_congr rfl fun i _ => ?_
  rw [coeff_add, coeff_add, ← add_mul, ← C_add]
  congr 2; ring

/-- Coefficients of a product of strided polynomials. -/
theorem coeff_strided (C0 C1 C2 C3 C4 C5 C6 : R16[X]) (j : Nat) :
    let p := expand R16 4 C0 + X * expand R16 4 C1 + X ^ 2 * expand R16 4 C2 + X ^ 3 * expand R16 4 C3 + X ^ 4 * expand R16 4 C4
      + X ^ 5 * expand R16 4 C5 + X ^ 6 * expand R16 4 C6
    p.coeff (4 * (j + 1)) = C0.coeff (j + 1) + C4.coeff j ∧ p.coeff (4 * (j + 1) + 1) = C1.coeff (j + 1) + C5.coeff j ∧
    p.coeff (4 * (j + 1) + 2) = C2.coeff (j + 1) + C6.coeff j ∧ p.coeff (4 * j + 3) = C3.coeff j ∧
    p.coeff 0 = C0.coeff 0 ∧ p.coeff 1 = C1.coeff 0 ∧ p.coeff 2 = C2.coeff 0 := by
  have hx (m : Nat) (q : R16[X]) (t r i : Nat) (h : m = t + (4 * i + r)) (hr : r < 4) :
      (X ^ t * expand R16 4 q).coeff m = if r = 0 then q.coeff i else 0 := by
    rw [coeff_X_pow_mul', if_pos (by omega), coeff_expand (by omega)]
    by_cases e : r = 0
    · rw [if_pos e, if_pos (by omega)]; congr 1; omega
    · rw [if_neg e, if_neg (by omega)]
  have hz (m : Nat) (q : R16[X]) (t : Nat) (h : m < t) : (X ^ t * expand R16 4 q).coeff m = 0 := by
    rw [coeff_X_pow_mul', if_neg (by omega)]
  dsimp only
  rw [show expand R16 4 C0 = X ^ 0 * expand R16 4 C0 by rw [pow_zero, one_mul],
    show X * expand R16 4 C1 = X ^ 1 * expand R16 4 C1 by rw [pow_one]]
  simp only [coeff_add]
  refine ⟨?_, ?_, ?_, ?_, ?_, ?_, ?_⟩
  · rw [hx _ C0 0 0 (j + 1) (by omega) (by omega), hx _ C1 1 3 j (by omega) (by omega), hx _ C2 2 2 j (by omega) (by omega),
      hx _ C3 3 1 j (by omega) (by omega), hx _ C4 4 0 j (by omega) (by omega)]
    cases j with
    | zero => rw [hz _ C5 5 (by omega), hz _ C6 6 (by omega)]; simp
    | succ j => rw [hx _ C5 5 3 j (by omega) (by omega), hx _ C6 6 2 j (by omega) (by omega)]; simp
  · rw [hx _ C0 0 1 (j + 1) (by omega) (by omega), hx _ C1 1 0 (j + 1) (by omega) (by omega), hx _ C2 2 3 j (by omega) (by omega),
      hx _ C3 3 2 j (by omega) (by omega), hx _ C4 4 1 j (by omega) (by omega), hx _ C5 5 0 j (by omega) (by omega)]
    cases j with
    | zero => rw [hz _ C6 6 (by omega)]; simp
    | succ j => rw [hx _ C6 6 3 j (by omega) (by omega)]; simp
  · rw [hx _ C0 0 2 (j + 1) (by omega) (by omega), hx _ C1 1 1 (j + 1) (by omega) (by omega), hx _ C2 2 0 (j + 1) (by omega) (by omega),
      hx _ C3 3 3 j (by omega) (by omega), hx _ C4 4 2 j (by omega) (by omega), hx _ C5 5 1 j (by omega) (by omega),
      hx _ C6 6 0 j (by omega) (by omega)]
    simp
  · rw [hx _ C0 0 3 j (by omega) (by omega), hx _ C1 1 2 j (by omega) (by omega), hx _ C2 2 1 j (by omega) (by omega),
      hx _ C3 3 0 j (by omega) (by omega)]
    cases j with
    | zero => rw [hz _ C4 4 (by omega), hz _ C5 5 (by omega), hz _ C6 6 (by omega)]; simp
    | succ j => rw [hx _ C4 4 3 j (by omega) (by omega), hx _ C5 5 2 j (by omega) (by omega), hx _ C6 6 1 j (by omega) (by omega)]; simp
  · rw [hx _ C0 0 0 0 (by omega) (by omega), hz _ C1 1 (by omega), hz _ C2 2 (by omega), hz _ C3 3 (by omega), hz _ C4 4 (by omega),
      hz _ C5 5 (by omega), hz _ C6 6 (by omega)]; simp
  · rw [hx _ C0 0 1 0 (by omega) (by omega), hx _ C1 1 0 0 (by omega) (by omega), hz _ C2 2 (by omega), hz _ C3 3 (by omega),
      hz _ C4 4 (by omega), hz _ C5 5 (by omega), hz _ C6 6 (by omega)]; simp
  · rw [hx _ C0 0 2 0 (by omega) (by omega), hx _ C1 1 1 0 (by omega) (by omega), hx _ C2 2 0 0 (by omega) (by omega),
      hz _ C3 3 (by omega), hz _ C4 4 (by omega), hz _ C5 5 (by omega), hz _ C6 6 (by omega)]; simp

/-- The seven arrays hold the seven evaluations of the product. -/
structure Prods (b stack : List R16) (C0 C1 C2 C3 C4 C5 C6 : R16[X]) : Prop where
  lb : b.length = 256
  ls : stack.length = 832
  e0 : S b 64 64 = nega C6
  e1 : S b 0 64 = nega (C0 + 2 * C1 + 4 * C2 + 8 * C3 + 16 * C4 + 32 * C5 + 64 * C6)
  e2 : S stack (7 * 64) 64 = nega (C0 + C1 + C2 + C3 + C4 + C5 + C6)
  e3 : S stack (8 * 64) 64 = nega (C0 - C1 + C2 - C3 + C4 - C5 + C6)
  e4 : S stack (9 * 64) 64 = nega (64 * C0 + 32 * C1 + 16 * C2 + 8 * C3 + 4 * C4 + 2 * C5 + C6)
  e5 : S stack (10 * 64) 64 = nega (64 * C0 - 32 * C1 + 16 * C2 - 8 * C3 + 4 * C4 - 2 * C5 + C6)
  e6 : S stack (11 * 64) 64 = nega C0

/-- The residue modulo `2^13` of a coefficient of the reduced polynomial. -/
noncomputable def cf (p : R16[X]) (i : Nat) : ZMod 8192 := red (p.coeff i) - red (p.coeff (i + 64))

/-- What the first `i` iterations have added to `res[4j+t]`. -/
noncomputable def added (C0 C1 C2 C3 C4 C5 C6 : R16[X]) (i j t : Nat) : ZMod 8192 :=
  if j < i then
    match t with
    | 0 => cf C0 j + (if j = 0 then 0 else cf C4 (j - 1))
    | 1 => cf C1 j + (if j = 0 then 0 else cf C5 (j - 1))
    | 2 => cf C2 j + (if j = 0 then 0 else cf C6 (j - 1))
    | _ => cf C3 j
  else 0

theorem interpLoop_ok {b stack : List R16} {C0 C1 C2 C3 C4 C5 C6 : R16[X]} (h : Prods b stack C0 C1 C2 C3 C4 C5 C6)
    (s0 : IS) (hr : s0.res.length = 256) :
    Ok (loop 64 s0 (interpStep .wrap b stack)) fun s => s.res.length = 256 ∧
      (∀ j t, j < 64 → t < 4 → red (s.res.getD (4 * j + t) 0) = red (s0.res.getD (4 * j + t) 0) + added C0 C1 C2 C3 C4 C5 C6 64 j t) ∧
      red s.r2 = cf C4 63 ∧ red s.r1 = cf C5 63 ∧ red s.r0 = cf C6 63 := by
  refine (loop_inv (fun i (s : IS) => s.res.length = 256 ∧
      (∀ j t, j < 64 → t < 4 → red (s.res.getD (4 * j + t) 0) = red (s0.res.getD (4 * j + t) 0) + added C0 C1 C2 C3 C4 C5 C6 i j t) ∧
      (0 < i → red s.r2 = cf C4 (i - 1) ∧ red s.r1 = cf C5 (i - 1) ∧ red s.r0 = cf C6 (i - 1)))
    ⟨hr, fun j t _ _ => by simp [added], fun h => by omega⟩ ?_).mono fun s h => ⟨h.1, h.2.1, h.2.2 (by omega)⟩
  rintro i s hi ⟨hl, hs, hp⟩
  have e1' := S_getD b 0 h.e1 i hi
  rw [Nat.zero_add] at e1'
  unfold interpStep
  have l1 := h.lb
  have l2 := h.ls
  rw [rd_ok 0 (by omega), ok_bind, rd_ok 0 (by omega), ok_bind, rd_ok 0 (by omega), ok_bind, rd_ok 0 (by omega), ok_bind,
    rd_ok 0 (by omega), ok_bind, rd_ok 0 (by omega), ok_bind, rd_ok 0 (by omega), ok_bind, interp_wrap,
    S_getD b 64 h.e0 i hi, e1', S_getD stack _ h.e2 i hi, S_getD stack _ h.e3 i hi, S_getD stack _ h.e4 i hi,
    S_getD stack _ h.e5 i hi, S_getD stack _ h.e6 i hi]
  simp only [nega_coeff _ _ hi]
  have n2 : u16 2 = 2 := by decide
  have n4 : u16 4 = 4 := by decide
  have n8 : u16 8 = 8 := by decide
  have n16 : u16 16 = 16 := by decide
  have n32 : u16 32 = 32 := by decide
  have n64 : u16 64 = 64 := by decide
  refine (toomInterp_ok (prom (C0.coeff i) - prom (C0.coeff (i + 64))) (prom (C1.coeff i) - prom (C1.coeff (i + 64)))
    (prom (C2.coeff i) - prom (C2.coeff (i + 64))) (prom (C3.coeff i) - prom (C3.coeff (i + 64)))
    (prom (C4.coeff i) - prom (C4.coeff (i + 64))) (prom (C5.coeff i) - prom (C5.coeff (i + 64)))
    (prom (C6.coeff i) - prom (C6.coeff (i + 64))) _ _ _ _ _ _ _ ?_ ?_ ?_ ?_ ?_ ?_ ?_).bind fun o ho => ?_
  iterate 7
    · apply prom_of_eq
      simp only [u16_add, u16_sub, u16_mul, u16_prom, coeff_add, coeff_sub, coeff_ofNat_mul, n2, n4, n8, n16, n32, n64]
      try ring
  have hred (x : R16) (p : R16[X]) (hx : ∃ z, prom x = prom (p.coeff i) - prom (p.coeff (i + 64)) + 8192 * z) : red x = cf p i := by
    obtain ⟨z, hz⟩ := hx
    unfold cf
    rw [red_prom, red_prom, red_prom, hz]
    push_cast
    have : (8192 : ZMod 8192) = 0 := by decide
    rw [this]; ring
  obtain ⟨o0, o1, o2, o3, o4, o5, o6⟩ := ho
  replace o0 := hred _ _ o0
  replace o1 := hred _ _ o1
  replace o2 := hred _ _ o2
  replace o3 := hred _ _ o3
  replace o4 := hred _ _ o4
  replace o5 := hred _ _ o5
  replace o6 := hred _ _ o6
  rw [addTo_ok (by omega), ok_bind, addTo_ok (by rw [List.length_set]; omega), ok_bind,
    addTo_ok (by simp only [List.length_set]; omega), ok_bind, addTo_ok (by simp only [List.length_set]; omega), ok_bind]
  refine Ok.pure ⟨by simp only [List.length_set]; exact hl, fun j t hj ht => ?_, fun _ => ⟨o4, o5, o6⟩⟩
  have v0 : red (if i = 0 then o.w1 else o.w1 + s.r2) = cf C0 i + (if i = 0 then 0 else cf C4 (i - 1)) := by
    split
    · rw [o0, add_zero]
    · rw [map_add, o0, (hp (by omega)).1]
  have v1 : red (if i = 0 then o.w2 else o.w2 + s.r1) = cf C1 i + (if i = 0 then 0 else cf C5 (i - 1)) := by
    split
    · rw [o1, add_zero]
    · rw [map_add, o1, (hp (by omega)).2.1]
  have v2 : red (if i = 0 then o.w3 else o.w3 + s.r0) = cf C2 i + (if i = 0 then 0 else cf C6 (i - 1)) := by
    split
    · rw [o2, add_zero]
    · rw [map_add, o2, (hp (by omega)).2.2]
  generalize (if i = 0 then o.w1 else o.w1 + s.r2) = x0 at v0 ⊢
  generalize (if i = 0 then o.w2 else o.w2 + s.r1) = x1 at v1 ⊢
  generalize (if i = 0 then o.w3 else o.w3 + s.r0) = x2 at v2 ⊢
  simp only [getD_set, List.length_set]
  by_cases e : j = i
  · subst e
    have a0 (t : Nat) : added C0 C1 C2 C3 C4 C5 C6 j j t = 0 := if_neg (by omega)
    have a1 (t : Nat) : added C0 C1 C2 C3 C4 C5 C6 (j + 1) j t = _ := if_pos (by omega)
    rw [a1]
    have q := hs j t hj ht
    rw [a0, add_zero] at q
    rw [← q]
    interval_cases t
    · rw [if_neg (by omega), if_neg (by omega), if_pos (by omega), if_neg (by omega), map_add, v0]
      simp only [Nat.zero_add, Nat.add_zero]
    · rw [if_neg (by omega), if_pos (by omega), if_neg (by omega), if_neg (by omega), map_add, v1]; simp only [Nat.add_comm (4 * j)]
    · rw [if_pos (by omega), if_neg (by omega), if_neg (by omega), if_neg (by omega), map_add, v2]; simp only [Nat.add_comm (4 * j)]
    · rw [if_neg (by omega), if_neg (by omega), if_neg (by omega), if_pos (by omega), map_add, o3]; simp only [Nat.add_comm (4 * j)]
  · rw [if_neg (by omega), if_neg (by omega), if_neg (by omega), if_neg (by omega), hs j t hj ht]
    unfold added
    have : (j < i + 1) = (j < i) := by apply propext; omega
    simp only [this]

/-- The seven products, from the strided parts of the operands. -/
theorem strdProds_ok {kara : Kara} (hk : KaraOk kara) (a b : List R16) (ha : a.length = 256) (hb : b.length = 256) :
    Ok (strdProds kara a b) fun r => Prods r.1 r.2 (S4 a 0 * S4 b 0) (S4 a 0 * S4 b 1 + S4 a 1 * S4 b 0)
      (S4 a 0 * S4 b 2 + S4 a 1 * S4 b 1 + S4 a 2 * S4 b 0) (S4 a 0 * S4 b 3 + S4 a 1 * S4 b 2 + S4 a 2 * S4 b 1 + S4 a 3 * S4 b 0)
      (S4 a 1 * S4 b 3 + S4 a 2 * S4 b 2 + S4 a 3 * S4 b 1) (S4 a 2 * S4 b 3 + S4 a 3 * S4 b 2) (S4 a 3 * S4 b 3) := by
  unfold strdProds
  refine (evalA_ok ha (length_uninit _ _ _)).bind fun s0 ⟨l0, hA⟩ => ?_
  refine (evalB_ok hb l0).bind fun r1 ⟨lb1, ls1, hb1, hB1, hA1⟩ => ?_
  refine (mul1_ok hk lb1 ls1).bind fun r2 ⟨lb2, ls2, p1, q2⟩ => ?_
  refine (mul2_ok hk lb2 ls2).bind fun r3 ⟨lb3, ls3, p2, k3, q3⟩ => ?_
  refine (mulK_ok hk 2 (by omega) lb3 ls3).bind fun r4 ⟨lb4, ls4, k4, k4', p3, q4⟩ => ?_
  refine (mulK_ok hk 3 (by omega) lb4 ls4).bind fun r5 ⟨lb5, ls5, k5, k5', p4, q5⟩ => ?_
  refine (mulK_ok hk 4 (by omega) lb5 ls5).bind fun r6 ⟨lb6, ls6, k6, k6', p5, q6⟩ => ?_
  refine (mulK_ok hk 5 (by omega) lb6 ls6).bind fun r7 ⟨lb7, ls7, k7, k7', p6, q7⟩ => ?_
  refine (mulK_ok hk 6 (by omega) lb7 ls7).mono fun r8 ⟨lb8, ls8, k8, k8', p7, q8⟩ => ?_
  have hA' (m : Nat) (h : m < 7) := (hA1 m h).trans (hA m h)
  have z0 := hA' 0 (by omega)
  have z1 := hA' 1 (by omega)
  have z7 := hB1 0 (by omega)
  simp only [Nat.zero_mul, Nat.one_mul, Nat.zero_add] at z0 z1 z7
  have w1 := (q2 1 (by omega))
  simp only [Nat.one_mul] at w1
  rw [z0, hb1] at p1
  rw [w1, q2 7 (by omega), z1, z7] at p2
  rw [q3 2 (by omega) (by omega), q2 2 (by omega), hA' 2 (by omega), q3 8 (by omega) (by omega), q2 8 (by omega),
    hB1 1 (by omega)] at p3
  rw [q4 3 (by omega) (by omega) (by omega), q3 3 (by omega) (by omega), q2 3 (by omega), hA' 3 (by omega),
    q4 9 (by omega) (by omega) (by omega), q3 9 (by omega) (by omega), q2 9 (by omega), hB1 2 (by omega)] at p4
  rw [q5 4 (by omega) (by omega) (by omega), q4 4 (by omega) (by omega) (by omega), q3 4 (by omega) (by omega), q2 4 (by omega),
    hA' 4 (by omega), q5 10 (by omega) (by omega) (by omega), q4 10 (by omega) (by omega) (by omega), q3 10 (by omega) (by omega),
    q2 10 (by omega), hB1 3 (by omega)] at p5
  rw [q6 5 (by omega) (by omega) (by omega), q5 5 (by omega) (by omega) (by omega), q4 5 (by omega) (by omega) (by omega),
    q3 5 (by omega) (by omega), q2 5 (by omega), hA' 5 (by omega), q6 11 (by omega) (by omega) (by omega),
    q5 11 (by omega) (by omega) (by omega), q4 11 (by omega) (by omega) (by omega), q3 11 (by omega) (by omega),
    q2 11 (by omega), hB1 4 (by omega)] at p6
  rw [q7 6 (by omega) (by omega) (by omega), q6 6 (by omega) (by omega) (by omega), q5 6 (by omega) (by omega) (by omega),
    q4 6 (by omega) (by omega) (by omega), q3 6 (by omega) (by omega), q2 6 (by omega), hA' 6 (by omega),
    q7 12 (by omega) (by omega) (by omega), q6 12 (by omega) (by omega) (by omega),
    q5 12 (by omega) (by omega) (by omega), q4 12 (by omega) (by omega) (by omega), q3 12 (by omega) (by omega),
    q2 12 (by omega), hB1 5 (by omega)] at p7
  have f1 := ((((((k8'.trans k7').trans k6').trans k5').trans k4').trans k3)).trans p1
  have f2 := ((((k8.trans k7).trans k6).trans k5).trans k4).trans p2
  have f3 := (q8 7 (by omega) (by omega) (by omega)).trans <| (q7 7 (by omega) (by omega) (by omega)).trans <|
    (q6 7 (by omega) (by omega) (by omega)).trans <| (q5 7 (by omega) (by omega) (by omega)).trans p3
  have f4 := (q8 8 (by omega) (by omega) (by omega)).trans <| (q7 8 (by omega) (by omega) (by omega)).trans <|
    (q6 8 (by omega) (by omega) (by omega)).trans p4
  have f5 := (q8 9 (by omega) (by omega) (by omega)).trans <| (q7 9 (by omega) (by omega) (by omega)).trans p5
  have f6 := (q8 10 (by omega) (by omega) (by omega)).trans p6
  have f7 := p7
  clear p1 p2 p3 p4 p5 p6 p7 q2 q3 q4 q5 q6 q7 q8 k3 k4 k4' k5 k5' k6 k6' k7 k7' k8 k8' hA hA' hA1 hB1 hb1 z0 z1 z7 w1
  simp only [evSlot] at f1 f2 f3 f4 f5 f6 f7
  generalize S4 a 0 = A0 at *
  generalize S4 a 1 = A1 at *
  generalize S4 a 2 = A2 at *
  generalize S4 a 3 = A3 at *
  generalize S4 b 0 = B0 at *
  generalize S4 b 1 = B1 at *
  generalize S4 b 2 = B2 at *
  generalize S4 b 3 = B3 at *
  refine ⟨lb8, ls8, f1.trans ?_, f2.trans ?_, f3.trans ?_, f4.trans ?_, f5.trans ?_, f6.trans ?_, f7.trans ?_⟩ <;>
    (congr 1; try ring)

open Spec in
/-- What a Toom-Cook routine has to do: add the product in `Z[X]/(X^256+1)` to `res`, modulo `2^13`.  It may overwrite `b`. -/
def ToomOk (toom : Toom) : Prop := ∀ a b res : List R16, a.length = 256 → b.length = 256 → res.length = 256 →
  Ok (toom a b res) fun r => r.1.length = 256 ∧ r.2.length = 256 ∧
    ∀ k : Fin 256, toP r.2 k % 8192 = (toP res k + negMul (toP a) (toP b) k) % 8192

theorem toom_striding_ok {kara : Kara} (hk : KaraOk kara) : ToomOk (toom_cook_4way_striding .wrap kara) := by
  intro a b res ha hb hr
  unfold toom_cook_4way_striding
  refine (strdProds_ok hk a b ha hb).bind fun r8 HP => ?_
  have hS := negacyclic_coeff a b
  rw [S_eq_S4 a, S_eq_S4 b] at hS
  have dA0 := Deg.S4 a 0; have dA1 := Deg.S4 a 1; have dA2 := Deg.S4 a 2; have dA3 := Deg.S4 a 3
  have dB0 := Deg.S4 b 0; have dB1 := Deg.S4 b 1; have dB2 := Deg.S4 b 2; have dB3 := Deg.S4 b 3
  generalize S4 a 0 = A0 at *
  generalize S4 a 1 = A1 at *
  generalize S4 a 2 = A2 at *
  generalize S4 a 3 = A3 at *
  generalize S4 b 0 = B0 at *
  generalize S4 b 1 = B1 at *
  generalize S4 b 2 = B2 at *
  generalize S4 b 3 = B3 at *
  obtain ⟨C0, hC0⟩ : ∃ C0, C0 = A0 * B0 := ⟨_, rfl⟩
  obtain ⟨C1, hC1⟩ : ∃ C1, C1 = A0 * B1 + A1 * B0 := ⟨_, rfl⟩
  obtain ⟨C2, hC2⟩ : ∃ C2, C2 = A0 * B2 + A1 * B1 + A2 * B0 := ⟨_, rfl⟩
  obtain ⟨C3, hC3⟩ : ∃ C3, C3 = A0 * B3 + A1 * B2 + A2 * B1 + A3 * B0 := ⟨_, rfl⟩
  obtain ⟨C4, hC4⟩ : ∃ C4, C4 = A1 * B3 + A2 * B2 + A3 * B1 := ⟨_, rfl⟩
  obtain ⟨C5, hC5⟩ : ∃ C5, C5 = A2 * B3 + A3 * B2 := ⟨_, rfl⟩
  obtain ⟨C6, hC6⟩ : ∃ C6, C6 = A3 * B3 := ⟨_, rfl⟩
  have d4 : Deg C4 127 := hC4 ▸ ((dA1.mul dB3).add (dA2.mul dB2)).add (dA3.mul dB1)
  have d5 : Deg C5 127 := hC5 ▸ (dA2.mul dB3).add (dA3.mul dB2)
  have d6 : Deg C6 127 := hC6 ▸ dA3.mul dB3
  rw [← hC0, ← hC1, ← hC2, ← hC3, ← hC4, ← hC5, ← hC6] at HP
  have goalEq : (expand R16 4 A0 + X * expand R16 4 A1 + X ^ 2 * expand R16 4 A2 + X ^ 3 * expand R16 4 A3) *
      (expand R16 4 B0 + X * expand R16 4 B1 + X ^ 2 * expand R16 4 B2 + X ^ 3 * expand R16 4 B3)
      = expand R16 4 C0 + X * expand R16 4 C1 + X ^ 2 * expand R16 4 C2 + X ^ 3 * expand R16 4 C3 + X ^ 4 * expand R16 4 C4
      + X ^ 5 * expand R16 4 C5 + X ^ 6 * expand R16 4 C6 := by
    simp only [hC0, hC1, hC2, hC3, hC4, hC5, hC6, map_add, map_mul]; ring
  rw [goalEq] at hS
  clear goalEq hC0 hC1 hC2 hC3 hC4 hC5 hC6
  refine (interpLoop_ok HP _ hr).bind fun s ⟨hl, hs, g2, g1, g0⟩ => ?_
  rw [rd_ok 0 (by omega), ok_bind, wr_ok (by omega), ok_bind, rd_ok 0 (by rw [List.length_set]; omega), ok_bind,
    wr_ok (by rw [List.length_set]; omega), ok_bind, rd_ok 0 (by simp only [List.length_set]; omega), ok_bind,
    wr_ok (by simp only [List.length_set]; omega), ok_bind]
  refine Ok.pure ⟨HP.lb, by simp only [List.length_set]; exact hl, fun k => ?_⟩
  have hk := k.isLt
  have hrd (x : R16) : red x = ((x.toNat : Int) : ZMod 8192) := by simp [red]
  refine (ZMod.intCast_eq_intCast_iff' _ _ 8192).1 ?_
  push_cast
  rw [← hS k]
  simp only [toP, ← hrd, coeff_map]
  have hcs := coeff_strided C0 C1 C2 C3 C4 C5 C6
  dsimp only at hcs hs
  generalize expand R16 4 C0 + X * expand R16 4 C1 + X ^ 2 * expand R16 4 C2 + X ^ 3 * expand R16 4 C3 + X ^ 4 * expand R16 4 C4
      + X ^ 5 * expand R16 4 C5 + X ^ 6 * expand R16 4 C6 = p at hcs
  have hK : k.val = 4 * (k.val / 4) + k.val % 4 := by omega
  have hj : k.val / 4 < 64 := by omega
  have ht : k.val % 4 < 4 := by omega
  generalize k.val / 4 = j at hK hj
  generalize k.val % 4 = t at hK ht
  have q := hs j t hj ht
  rw [← hK] at q
  have aj : ∀ t, added C0 C1 C2 C3 C4 C5 C6 64 j t = _ := fun t => if_pos hj
  rw [aj] at q
  cases j with
  | zero =>
    obtain ⟨_, _, _, h3, h0, h1, h2⟩ := hcs 0
    obtain ⟨h4, h5, h6, _, _, _, _⟩ := hcs 63
    obtain ⟨_, _, _, h7, _, _, _⟩ := hcs 64
    have e4 : cf C4 63 = red (C4.coeff 63) := by unfold cf; rw [d4 (63 + 64) (by omega), map_zero, sub_zero]
    have e5 : cf C5 63 = red (C5.coeff 63) := by unfold cf; rw [d5 (63 + 64) (by omega), map_zero, sub_zero]
    have e6 : cf C6 63 = red (C6.coeff 63) := by unfold cf; rw [d6 (63 + 64) (by omega), map_zero, sub_zero]
    simp only [Nat.mul_zero, Nat.zero_add] at hK
    rw [hK] at q ⊢
    simp only [getD_set, List.length_set]
    interval_cases t
    · rw [if_neg (by omega), if_neg (by omega), if_pos (by omega), map_sub, show (0#16 : R16) = 0 from rfl, q, g2, e4, h0, show 0 + 256 = 4 * (63 + 1) from rfl, h4, map_add]
      simp only [if_true, cf]; ring
    · rw [if_neg (by omega), if_pos (by omega), if_neg (by omega), map_sub, show (0#16 : R16) = 0 from rfl, q, g1, e5, h1, show 1 + 256 = 4 * (63 + 1) + 1 from rfl, h5, map_add]
      simp only [if_true, cf]; ring
    · rw [if_pos (by omega), if_neg (by omega), if_neg (by omega), map_sub, show (0#16 : R16) = 0 from rfl, q, g0, e6, h2, show 2 + 256 = 4 * (63 + 1) + 2 from rfl, h6, map_add]
      simp only [if_true, cf]; ring
    · rw [if_neg (by omega), if_neg (by omega), if_neg (by omega), q, h3, h7]
      simp only [cf]
  | succ j =>
    rw [getD_set, if_neg (by omega), getD_set, if_neg (by omega), getD_set, if_neg (by omega), q]
    obtain ⟨h0, h1, h2, _, _, _, _⟩ := hcs j
    obtain ⟨_, _, _, h3, _, _, _⟩ := hcs (j + 1)
    obtain ⟨h4, h5, h6, _, _, _, _⟩ := hcs (j + 64)
    obtain ⟨_, _, _, h7, _, _, _⟩ := hcs (j + 65)
    rw [hK]
    interval_cases t
    · rw [Nat.add_zero, h0, show 4 * (j + 1) + 256 = 4 * (j + 64 + 1) by ring, h4]
      simp only [cf, map_add, Nat.add_sub_cancel, show ¬ j + 1 = 0 by omega, if_false, show j + 1 + 64 = j + 64 + 1 by ring]; ring
    · rw [h1, show 4 * (j + 1) + 1 + 256 = 4 * (j + 64 + 1) + 1 by ring, h5]
      simp only [cf, map_add, Nat.add_sub_cancel, show ¬ j + 1 = 0 by omega, if_false, show j + 1 + 64 = j + 64 + 1 by ring]; ring
    · rw [h2, show 4 * (j + 1) + 2 + 256 = 4 * (j + 64 + 1) + 2 by ring, h6]
      simp only [cf, map_add, Nat.add_sub_cancel, show ¬ j + 1 = 0 by omega, if_false, show j + 1 + 64 = j + 64 + 1 by ring]; ring
    · rw [h3, show 4 * (j + 1) + 3 + 256 = 4 * (j + 65) + 3 by ring, h7]
      simp only [cf, show j + 1 + 64 = j + 65 by ring]

end Saber.M4
