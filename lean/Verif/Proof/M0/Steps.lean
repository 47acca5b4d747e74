import Verif.Proof.M0.Lanes
/-!
# What the loops of `unrolled_kara_mem_top/bottom` do to the lanes
-/
namespace Saber.M0
open Saber
set_option linter.unusedSimpArgs false
set_option linter.unusedTactic false
set_option linter.unreachableTactic false
set_option linter.unusedSectionVars false

/-- Resolves `if`s by linear arithmetic. -/
macro "ifs" : tactic => `(tactic| (repeat (first | rfl | rw [if_neg (by omega)] | rw [if_pos (by omega)])))

/-- Executes a straight-line body. -/
macro "step_tac" : tactic => `(tactic| (
  simp (disch := ((try simp only [List.length_set]); omega)) only [rd_ok (0 : BitVec 16), wr_ok, ok_bind, pure_eq_ok]
  refine Ok.pure ⟨by simp only [List.length_set], by simp only [List.length_set], ?_, ?_, ?_, ?_⟩
  · simp only [List.forall_mem_cons, List.not_mem_nil, false_imp_iff, implies_true, and_true]
    simp only [getD_set, List.length_set, Nat.zero_add, true_and, ite_true]
    (repeat' apply And.intro) <;> ifs
  · simp only [List.forall_mem_cons, List.not_mem_nil, false_imp_iff, implies_true, and_true]
    intro j hj
    simp only [getD_set, List.length_set]
    ifs
  · simp only [getD_set, List.length_set, cond_true, cond_false, Nat.zero_add, true_and, ite_true]
    ifs
  · intro j hj
    try simp only [getD_set, List.length_set]
    ifs))

/-- Disjointness of lanes. -/
macro "disj_tac" : tactic => `(tactic| (
  simp only [Disj, List.forall_mem_cons, List.not_mem_nil, false_imp_iff, implies_true, and_true, true_or, true_and]
  try ((repeat' apply And.intro) <;> omega)))

/-- A function depends only on the listed lanes. -/
macro "dep_tac" : tactic => `(tactic| (
  intros
  rename_i hv
  simp only [List.forall_mem_cons, List.not_mem_nil, false_imp_iff, implies_true, and_true] at hv
  try simp only [hv]))

section
variable {k h : Nat} (hk : k = 2 * h) (hh : 2 ≤ h) {a c : List R16} {ao co o : Nat} {s : KM}
  (ha : ao + 4 * h ≤ a.length) (hc : co + 4 * h ≤ c.length) (hd : o + (8 * h - 1) ≤ s.d.length) (ht : s.t.length = h)
include hk hh hd ht

include ha in
theorem kara1_step {i : Nat} (hi : i < h) : Ok (kara1 k a ao o i s) (Step o [k, k+k/2, 3*k-1, 3*k+k/2-1, 2*k] i
    (fun b v => if b = k then v 0 + v k else if b = k+k/2 then v (k/2) + v (k+k/2) + (v 0 + v k) else if b = 3*k-1 then a.getD (ao + i) 0 + a.getD (ao + (k+i)) 0 else if b = 3*k+k/2-1 then a.getD (ao + (k/2+i)) 0 + a.getD (ao + (k+k/2+i)) 0 else 0)
    (fun _ => a.getD (ao + i) 0 + a.getD (ao + (k+i)) 0 + (a.getD (ao + (k/2+i)) 0 + a.getD (ao + (k+k/2+i)) 0)) true s) := by
  unfold kara1
  step_tac

include ha in
theorem kara1_lanes : Ok (loop (k/2) s (kara1 k a ao o)) (Lanes o [k, k+k/2, 3*k-1, 3*k+k/2-1, 2*k] (h)
    (fun i b v => if b = k then v 0 + v k else if b = k+k/2 then v (k/2) + v (k+k/2) + (v 0 + v k) else if b = 3*k-1 then a.getD (ao + i) 0 + a.getD (ao + (k+i)) 0 else if b = 3*k+k/2-1 then a.getD (ao + (k/2+i)) 0 + a.getD (ao + (k+k/2+i)) 0 else 0)
    (fun i _ => a.getD (ao + i) 0 + a.getD (ao + (k+i)) 0 + (a.getD (ao + (k/2+i)) 0 + a.getD (ao + (k+k/2+i)) 0)) true s) := by
  have e : loop (k/2) s (kara1 k a ao o) = loop (h) s (kara1 k a ao o) := by rw [show k / 2 = h by omega]
  rw [e]
  refine lane_loop (rs := [0, k, k/2, k+k/2]) ?_ ?_ ?_ ?_ fun i s' hi hd' ht' => kara1_step hk hh ha (by omega) (by omega) hi
  · disj_tac
  · disj_tac
  · dep_tac
  · dep_tac

include hc in
theorem kara1_2_step {i : Nat} (hi : i < h) : Ok (kara1_2 k c co o i s) (Step o [2*k+k/2-1] i
    (fun _b _v => c.getD (co + i) 0 + c.getD (co + (k/2+i)) 0 + c.getD (co + (k+i)) 0 + c.getD (co + (k+k/2+i)) 0)
    (fun _ => 0) false s) := by
  unfold kara1_2
  step_tac

include hc in
theorem kara1_2_lanes : Ok (loop (k/2) s (kara1_2 k c co o)) (Lanes o [2*k+k/2-1] (h)
    (fun i _b _v => c.getD (co + i) 0 + c.getD (co + (k/2+i)) 0 + c.getD (co + (k+i)) 0 + c.getD (co + (k+k/2+i)) 0)
    (fun _i _ => 0) false s) := by
  have e : loop (k/2) s (kara1_2 k c co o) = loop (h) s (kara1_2 k c co o) := by rw [show k / 2 = h by omega]
  rw [e]
  refine lane_loop (rs := []) ?_ ?_ ?_ ?_ fun i s' hi hd' ht' => kara1_2_step hk hh hc (by omega) (by omega) hi
  · disj_tac
  · disj_tac
  · dep_tac
  · dep_tac

include hc in
theorem kara2_step {i : Nat} (hi : i < h-1) : Ok (kara2 k c co o i s) (Step o [2*k+k/2-1, k+k/2] i
    (fun b v => if b = 2*k+k/2-1 then v (k+k/2) + v (2*k) else 0)
    (fun _ => c.getD (co + i) 0 + c.getD (co + (k+i)) 0) true s) := by
  unfold kara2
  step_tac

include hc in
theorem kara2_lanes : Ok (loop (k/2-1) s (kara2 k c co o)) (Lanes o [2*k+k/2-1, k+k/2] (h-1)
    (fun _i b v => if b = 2*k+k/2-1 then v (k+k/2) + v (2*k) else 0)
    (fun i _ => c.getD (co + i) 0 + c.getD (co + (k+i)) 0) true s) := by
  have e : loop (k/2-1) s (kara2 k c co o) = loop (h-1) s (kara2 k c co o) := by rw [show k / 2 = h by omega]
  rw [e]
  refine lane_loop (rs := [k+k/2, 2*k]) ?_ ?_ ?_ ?_ fun i s' hi hd' ht' => kara2_step hk hh hc (by omega) (by omega) hi
  · disj_tac
  · disj_tac
  · dep_tac
  · dep_tac

include hc in
theorem kara2T_step {i : Nat} (hi : i = h - 1) : Ok (kara2' k c co o i s) (Step o [2*k+k/2-1, k+k/2] i
    (fun b v => if b = 2*k+k/2-1 then v (k+k/2) else 0)
    (fun _ => c.getD (co + i) 0 + c.getD (co + (k+i)) 0) true s) := by
  unfold kara2'
  step_tac

include hc in
theorem kara2T_tail : Ok (kara2' k c co o (k/2-1) s) (Step o [2*k+k/2-1, k+k/2] (h-1)
    (fun b v => if b = 2*k+k/2-1 then v (k+k/2) else 0)
    (fun _ => c.getD (co + (h-1)) 0 + c.getD (co + (k+(h-1))) 0) true s) := by
  have e : kara2' k c co o (k/2-1) s = kara2' k c co o (h-1) s := by rw [show k / 2 = h by omega]
  rw [e]
  exact kara2T_step hk hh hc hd ht rfl

include hc in
theorem kara3_step {i : Nat} (hi : i < h-1) : Ok (kara3 k c co o i s) (Step o [2*k, k+k/2, 2*k+k/2-1] i
    (fun b v => if b = 2*k then v (2*k) - v (k+k/2) else if b = k+k/2 then v (2*k+k/2-1) - v k else 0)
    (fun _ => c.getD (co + (k/2+i)) 0 + c.getD (co + (k+k/2+i)) 0) true s) := by
  unfold kara3
  step_tac

include hc in
theorem kara3_lanes : Ok (loop (k/2-1) s (kara3 k c co o)) (Lanes o [2*k, k+k/2, 2*k+k/2-1] (h-1)
    (fun _i b v => if b = 2*k then v (2*k) - v (k+k/2) else if b = k+k/2 then v (2*k+k/2-1) - v k else 0)
    (fun i _ => c.getD (co + (k/2+i)) 0 + c.getD (co + (k+k/2+i)) 0) true s) := by
  have e : loop (k/2-1) s (kara3 k c co o) = loop (h-1) s (kara3 k c co o) := by rw [show k / 2 = h by omega]
  rw [e]
  refine lane_loop (rs := [2*k, k+k/2, 2*k+k/2-1, k]) ?_ ?_ ?_ ?_ fun i s' hi hd' ht' => kara3_step hk hh hc (by omega) (by omega) hi
  · disj_tac
  · disj_tac
  · dep_tac
  · dep_tac

include hc in
theorem kara3T_step {i : Nat} (hi : i = h - 1) : Ok (kara3' k c co o i s) (Step o [k+k/2, 2*k+k/2-1] i
    (fun b v => if b = k+k/2 then v (2*k+k/2-1) - v k else 0)
    (fun _ => c.getD (co + (k/2+i)) 0 + c.getD (co + (k+k/2+i)) 0) true s) := by
  unfold kara3'
  step_tac

include hc in
theorem kara3T_tail : Ok (kara3' k c co o (k/2-1) s) (Step o [k+k/2, 2*k+k/2-1] (h-1)
    (fun b v => if b = k+k/2 then v (2*k+k/2-1) - v k else 0)
    (fun _ => c.getD (co + (k/2+(h-1))) 0 + c.getD (co + (k+k/2+(h-1))) 0) true s) := by
  have e : kara3' k c co o (k/2-1) s = kara3' k c co o (h-1) s := by rw [show k / 2 = h by omega]
  rw [e]
  exact kara3T_step hk hh hc hd ht rfl

theorem kara4_step {i : Nat} (hi : i < h-1) : Ok (kara4 k o i s) (Step o [k/2, 2*k, 3*k-1, 3*k+k/2-1, k] i
    (fun b v => if b = k/2 then v 0 + v (k/2) else if b = 2*k then v (2*k) - v (2*k+k/2) else if b = 3*k-1 then v (2*k) - v (2*k+k/2) + v k else if b = 3*k+k/2-1 then v (k+k/2) - (v (2*k) - v (2*k+k/2)) else 0)
    (fun _ => 0) false s) := by
  unfold kara4
  step_tac

theorem kara4_lanes : Ok (loop (k/2-1) s (kara4 k o)) (Lanes o [k/2, 2*k, 3*k-1, 3*k+k/2-1, k] (h-1)
    (fun _i b v => if b = k/2 then v 0 + v (k/2) else if b = 2*k then v (2*k) - v (2*k+k/2) else if b = 3*k-1 then v (2*k) - v (2*k+k/2) + v k else if b = 3*k+k/2-1 then v (k+k/2) - (v (2*k) - v (2*k+k/2)) else 0)
    (fun _i _ => 0) false s) := by
  have e : loop (k/2-1) s (kara4 k o) = loop (h-1) s (kara4 k o) := by rw [show k / 2 = h by omega]
  rw [e]
  refine lane_loop (rs := [0, k/2, 2*k, 2*k+k/2, k, k+k/2]) ?_ ?_ ?_ ?_ fun i s' hi hd' ht' => kara4_step hk hh (by omega) (by omega) hi
  · disj_tac
  · disj_tac
  · dep_tac
  · dep_tac

theorem kara4T_step {i : Nat} (hi : i = h - 1) : Ok (kara4' k o i s) (Step o [k/2, 3*k-1, 3*k+k/2-1] i
    (fun b v => if b = k/2 then v 0 + v (k/2) else if b = 3*k-1 then v (2*k) + v k else v (k+k/2) - v (2*k))
    (fun _ => 0) false s) := by
  unfold kara4'
  step_tac

theorem kara4T_tail : Ok (kara4' k o (k/2-1) s) (Step o [k/2, 3*k-1, 3*k+k/2-1] (h-1)
    (fun b v => if b = k/2 then v 0 + v (k/2) else if b = 3*k-1 then v (2*k) + v k else v (k+k/2) - v (2*k))
    (fun _ => 0) false s) := by
  have e : kara4' k o (k/2-1) s = kara4' k o (h-1) s := by rw [show k / 2 = h by omega]
  rw [e]
  exact kara4T_step hk hh hd ht rfl

include ha hc in
theorem kara4_2_step {i : Nat} (hi : i < h) : Ok (kara4_2 k a ao c co o i s) (Step o [k+k/2-1] i
    (fun _b _v => a.getD (ao + i) 0 + a.getD (ao + (k/2+i)) 0)
    (fun _ => c.getD (co + i) 0 + c.getD (co + (k/2+i)) 0) true s) := by
  unfold kara4_2
  step_tac

include ha hc in
theorem kara4_2_lanes : Ok (loop (k/2) s (kara4_2 k a ao c co o)) (Lanes o [k+k/2-1] (h)
    (fun i _b _v => a.getD (ao + i) 0 + a.getD (ao + (k/2+i)) 0)
    (fun i _ => c.getD (co + i) 0 + c.getD (co + (k/2+i)) 0) true s) := by
  have e : loop (k/2) s (kara4_2 k a ao c co o) = loop (h) s (kara4_2 k a ao c co o) := by rw [show k / 2 = h by omega]
  rw [e]
  refine lane_loop (rs := []) ?_ ?_ ?_ ?_ fun i s' hi hd' ht' => kara4_2_step hk hh ha hc (by omega) (by omega) hi
  · disj_tac
  · disj_tac
  · dep_tac
  · dep_tac

theorem kara5_step {i : Nat} (hi : i < h-1) : Ok (kara5 k o i s) (Step o [k+k/2-1, k/2] i
    (fun b v => if b = k+k/2-1 then v (k/2) + v k else 0)
    (fun _ => 0) false s) := by
  unfold kara5
  step_tac

theorem kara5_lanes : Ok (loop (k/2-1) s (kara5 k o)) (Lanes o [k+k/2-1, k/2] (h-1)
    (fun _i b v => if b = k+k/2-1 then v (k/2) + v k else 0)
    (fun _i _ => 0) false s) := by
  have e : loop (k/2-1) s (kara5 k o) = loop (h-1) s (kara5 k o) := by rw [show k / 2 = h by omega]
  rw [e]
  refine lane_loop (rs := [k/2, k]) ?_ ?_ ?_ ?_ fun i s' hi hd' ht' => kara5_step hk hh (by omega) (by omega) hi
  · disj_tac
  · disj_tac
  · dep_tac
  · dep_tac

theorem kara5T_step {i : Nat} (hi : i = h - 1) : Ok (kara5' k o i s) (Step o [k+k/2-1, k/2] i
    (fun b v => if b = k+k/2-1 then v (k/2) else 0)
    (fun _ => 0) false s) := by
  unfold kara5'
  step_tac

theorem kara5T_tail : Ok (kara5' k o (k/2-1) s) (Step o [k+k/2-1, k/2] (h-1)
    (fun b v => if b = k+k/2-1 then v (k/2) else 0)
    (fun _ => 0) false s) := by
  have e : kara5' k o (k/2-1) s = kara5' k o (h-1) s := by rw [show k / 2 = h by omega]
  rw [e]
  exact kara5T_step hk hh hd ht rfl

theorem kara6_step {i : Nat} (hi : i < h-1) : Ok (kara6 k o i s) (Step o [k, k/2, k+k/2-1] i
    (fun b v => if b = k then v k - v (k/2) else if b = k/2 then v (k+k/2-1) - v 0 else 0)
    (fun _ => 0) false s) := by
  unfold kara6
  step_tac

theorem kara6_lanes : Ok (loop (k/2-1) s (kara6 k o)) (Lanes o [k, k/2, k+k/2-1] (h-1)
    (fun _i b v => if b = k then v k - v (k/2) else if b = k/2 then v (k+k/2-1) - v 0 else 0)
    (fun _i _ => 0) false s) := by
  have e : loop (k/2-1) s (kara6 k o) = loop (h-1) s (kara6 k o) := by rw [show k / 2 = h by omega]
  rw [e]
  refine lane_loop (rs := [k, k/2, k+k/2-1, 0]) ?_ ?_ ?_ ?_ fun i s' hi hd' ht' => kara6_step hk hh (by omega) (by omega) hi
  · disj_tac
  · disj_tac
  · dep_tac
  · dep_tac

theorem kara6T_step {i : Nat} (hi : i = h - 1) : Ok (kara6' k o i s) (Step o [k/2, k+k/2-1] i
    (fun b v => if b = k/2 then v (k+k/2-1) - v 0 else 0)
    (fun _ => 0) false s) := by
  unfold kara6'
  step_tac

theorem kara6T_tail : Ok (kara6' k o (k/2-1) s) (Step o [k/2, k+k/2-1] (h-1)
    (fun b v => if b = k/2 then v (k+k/2-1) - v 0 else 0)
    (fun _ => 0) false s) := by
  have e : kara6' k o (k/2-1) s = kara6' k o (h-1) s := by rw [show k / 2 = h by omega]
  rw [e]
  exact kara6T_step hk hh hd ht rfl

include ha hc in
theorem kara7_step {i : Nat} (hi : i < h-1) : Ok (kara7 k a ao c co o i s) (Step o [k/2, 2*k, k, 3*k-1, 2*k+k/2, k+k/2, 3*k+k/2-1] i
    (fun b v => if b = k/2 then v (k/2) - v k else if b = 2*k then v (2*k) - v k + v (k+k/2) else if b = k then v (3*k-1) - v 0 else if b = 3*k-1 then 0 else if b = 2*k+k/2 then v (2*k) - v k + v (k+k/2) + v (2*k+k/2) - v (k+k/2) else if b = k+k/2 then v (3*k+k/2-1) - (v (k/2) - v k) else a.getD (ao + (k+i)) 0 + a.getD (ao + (k+k/2+i)) 0)
    (fun _ => c.getD (co + (k+i)) 0 + c.getD (co + (k+k/2+i)) 0) true s) := by
  unfold kara7
  step_tac

include ha hc in
theorem kara7_lanes : Ok (loop (k/2-1) s (kara7 k a ao c co o)) (Lanes o [k/2, 2*k, k, 3*k-1, 2*k+k/2, k+k/2, 3*k+k/2-1] (h-1)
    (fun i b v => if b = k/2 then v (k/2) - v k else if b = 2*k then v (2*k) - v k + v (k+k/2) else if b = k then v (3*k-1) - v 0 else if b = 3*k-1 then 0 else if b = 2*k+k/2 then v (2*k) - v k + v (k+k/2) + v (2*k+k/2) - v (k+k/2) else if b = k+k/2 then v (3*k+k/2-1) - (v (k/2) - v k) else a.getD (ao + (k+i)) 0 + a.getD (ao + (k+k/2+i)) 0)
    (fun i _ => c.getD (co + (k+i)) 0 + c.getD (co + (k+k/2+i)) 0) true s) := by
  have e : loop (k/2-1) s (kara7 k a ao c co o) = loop (h-1) s (kara7 k a ao c co o) := by rw [show k / 2 = h by omega]
  rw [e]
  refine lane_loop (rs := [k/2, k, 2*k, k+k/2, 3*k-1, 0, 2*k+k/2, 3*k+k/2-1]) ?_ ?_ ?_ ?_ fun i s' hi hd' ht' => kara7_step hk hh ha hc (by omega) (by omega) hi
  · disj_tac
  · disj_tac
  · dep_tac
  · dep_tac

include ha hc in
theorem kara7T_step {i : Nat} (hi : i = h - 1) : Ok (kara7' k a ao c co o i s) (Step o [k/2, 2*k, k, 3*k-1, 2*k+k/2, k+k/2, 3*k+k/2-1] i
    (fun b v => if b = k/2 then v (k/2) - v k else if b = 2*k then v (2*k) - v k else if b = k then v (3*k-1) - v 0 else if b = 3*k-1 then 0 else if b = 2*k+k/2 then v (2*k) - v k + v (2*k+k/2) else if b = k+k/2 then v (3*k+k/2-1) - (v (k/2) - v k) else a.getD (ao + (k+i)) 0 + a.getD (ao + (k+k/2+i)) 0)
    (fun _ => c.getD (co + (k+i)) 0 + c.getD (co + (k+k/2+i)) 0) true s) := by
  unfold kara7'
  step_tac

include ha hc in
theorem kara7T_tail : Ok (kara7' k a ao c co o (k/2-1) s) (Step o [k/2, 2*k, k, 3*k-1, 2*k+k/2, k+k/2, 3*k+k/2-1] (h-1)
    (fun b v => if b = k/2 then v (k/2) - v k else if b = 2*k then v (2*k) - v k else if b = k then v (3*k-1) - v 0 else if b = 3*k-1 then 0 else if b = 2*k+k/2 then v (2*k) - v k + v (2*k+k/2) else if b = k+k/2 then v (3*k+k/2-1) - (v (k/2) - v k) else a.getD (ao + (k+(h-1))) 0 + a.getD (ao + (k+k/2+(h-1))) 0)
    (fun _ => c.getD (co + (k+(h-1))) 0 + c.getD (co + (k+k/2+(h-1))) 0) true s) := by
  have e : kara7' k a ao c co o (k/2-1) s = kara7' k a ao c co o (h-1) s := by rw [show k / 2 = h by omega]
  rw [e]
  exact kara7T_step hk hh ha hc hd ht rfl

theorem kara8_step {i : Nat} (hi : i < h-1) : Ok (kara8 k o i s) (Step o [3*k+k/2-1, 2*k+k/2] i
    (fun b v => if b = 3*k+k/2-1 then v (2*k+k/2) + v (3*k) else 0)
    (fun _ => 0) false s) := by
  unfold kara8
  step_tac

theorem kara8_lanes : Ok (loop (k/2-1) s (kara8 k o)) (Lanes o [3*k+k/2-1, 2*k+k/2] (h-1)
    (fun _i b v => if b = 3*k+k/2-1 then v (2*k+k/2) + v (3*k) else 0)
    (fun _i _ => 0) false s) := by
  have e : loop (k/2-1) s (kara8 k o) = loop (h-1) s (kara8 k o) := by rw [show k / 2 = h by omega]
  rw [e]
  refine lane_loop (rs := [2*k+k/2, 3*k]) ?_ ?_ ?_ ?_ fun i s' hi hd' ht' => kara8_step hk hh (by omega) (by omega) hi
  · disj_tac
  · disj_tac
  · dep_tac
  · dep_tac

theorem kara8T_step {i : Nat} (hi : i = h - 1) : Ok (kara8' k o i s) (Step o [3*k+k/2-1, 2*k+k/2] i
    (fun b v => if b = 3*k+k/2-1 then v (2*k+k/2) else 0)
    (fun _ => 0) false s) := by
  unfold kara8'
  step_tac

theorem kara8T_tail : Ok (kara8' k o (k/2-1) s) (Step o [3*k+k/2-1, 2*k+k/2] (h-1)
    (fun b v => if b = 3*k+k/2-1 then v (2*k+k/2) else 0)
    (fun _ => 0) false s) := by
  have e : kara8' k o (k/2-1) s = kara8' k o (h-1) s := by rw [show k / 2 = h by omega]
  rw [e]
  exact kara8T_step hk hh hd ht rfl

theorem kara9_step {i : Nat} (hi : i < h-1) : Ok (kara9 k o i s) (Step o [3*k, 2*k+k/2, 3*k+k/2-1] i
    (fun b v => if b = 3*k then v (3*k) - v (2*k+k/2) else if b = 2*k+k/2 then v (3*k+k/2-1) - v (2*k) else 0)
    (fun _ => 0) false s) := by
  unfold kara9
  step_tac

theorem kara9_lanes : Ok (loop (k/2-1) s (kara9 k o)) (Lanes o [3*k, 2*k+k/2, 3*k+k/2-1] (h-1)
    (fun _i b v => if b = 3*k then v (3*k) - v (2*k+k/2) else if b = 2*k+k/2 then v (3*k+k/2-1) - v (2*k) else 0)
    (fun _i _ => 0) false s) := by
  have e : loop (k/2-1) s (kara9 k o) = loop (h-1) s (kara9 k o) := by rw [show k / 2 = h by omega]
  rw [e]
  refine lane_loop (rs := [3*k, 2*k+k/2, 3*k+k/2-1, 2*k]) ?_ ?_ ?_ ?_ fun i s' hi hd' ht' => kara9_step hk hh (by omega) (by omega) hi
  · disj_tac
  · disj_tac
  · dep_tac
  · dep_tac

theorem kara9T_step {i : Nat} (hi : i = h - 1) : Ok (kara9' k o i s) (Step o [2*k+k/2, 3*k+k/2-1] i
    (fun b v => if b = 2*k+k/2 then v (3*k+k/2-1) - v (2*k) else 0)
    (fun _ => 0) false s) := by
  unfold kara9'
  step_tac

theorem kara9T_tail : Ok (kara9' k o (k/2-1) s) (Step o [2*k+k/2, 3*k+k/2-1] (h-1)
    (fun b v => if b = 2*k+k/2 then v (3*k+k/2-1) - v (2*k) else 0)
    (fun _ => 0) false s) := by
  have e : kara9' k o (k/2-1) s = kara9' k o (h-1) s := by rw [show k / 2 = h by omega]
  rw [e]
  exact kara9T_step hk hh hd ht rfl

theorem kara10_step {i : Nat} (hi : i < h-1) : Ok (kara10 k o i s) (Step o [2*k+k/2, 3*k, k, 2*k, k+k/2] i
    (fun b v => if b = 2*k+k/2 then v (2*k+k/2) - v (3*k) - v (3*k+k/2) else if b = 3*k then v (3*k) - v (3*k+k/2) else if b = k then v k - v (2*k) else if b = 2*k then v (2*k) - (v (3*k) - v (3*k+k/2)) else v (k+k/2) - (v (2*k+k/2) - v (3*k)))
    (fun _ => 0) false s) := by
  unfold kara10
  step_tac

theorem kara10_lanes : Ok (loop (k/2-1) s (kara10 k o)) (Lanes o [2*k+k/2, 3*k, k, 2*k, k+k/2] (h-1)
    (fun _i b v => if b = 2*k+k/2 then v (2*k+k/2) - v (3*k) - v (3*k+k/2) else if b = 3*k then v (3*k) - v (3*k+k/2) else if b = k then v k - v (2*k) else if b = 2*k then v (2*k) - (v (3*k) - v (3*k+k/2)) else v (k+k/2) - (v (2*k+k/2) - v (3*k)))
    (fun _i _ => 0) false s) := by
  have e : loop (k/2-1) s (kara10 k o) = loop (h-1) s (kara10 k o) := by rw [show k / 2 = h by omega]
  rw [e]
  refine lane_loop (rs := [2*k+k/2, 3*k, 3*k+k/2, k, 2*k, k+k/2]) ?_ ?_ ?_ ?_ fun i s' hi hd' ht' => kara10_step hk hh (by omega) (by omega) hi
  · disj_tac
  · disj_tac
  · dep_tac
  · dep_tac

theorem kara10T_step {i : Nat} (hi : i = h - 1) : Ok (kara10' k o i s) (Step o [2*k+k/2, k, 2*k, k+k/2] i
    (fun b v => if b = 2*k+k/2 then v (2*k+k/2) - v (3*k) else if b = k then v k - v (2*k) else if b = 2*k then v (2*k) - v (3*k) else v (k+k/2) - (v (2*k+k/2) - v (3*k)))
    (fun _ => 0) false s) := by
  unfold kara10'
  step_tac

theorem kara10T_tail : Ok (kara10' k o (k/2-1) s) (Step o [2*k+k/2, k, 2*k, k+k/2] (h-1)
    (fun b v => if b = 2*k+k/2 then v (2*k+k/2) - v (3*k) else if b = k then v k - v (2*k) else if b = 2*k then v (2*k) - v (3*k) else v (k+k/2) - (v (2*k+k/2) - v (3*k)))
    (fun _ => 0) false s) := by
  have e : kara10' k o (k/2-1) s = kara10' k o (h-1) s := by rw [show k / 2 = h by omega]
  rw [e]
  exact kara10T_step hk hh hd ht rfl

end
end Saber.M0
