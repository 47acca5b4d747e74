import Verif.Model.Sanity
import Mathlib.Data.Fintype.BigOperators
import Mathlib.Logic.Equiv.Fin.Basic
import Mathlib.Tactic.Ring
import Mathlib.Tactic.Linarith
import Mathlib.Data.List.OfFn
import Mathlib.Data.List.GetD
import Mathlib.Data.List.Sort
import Mathlib.LinearAlgebra.Matrix.NonsingularInverse
/-!
# Proofs about the attack experiment
-/
namespace Saber.Sanity
open Spec (ringMul pairCoord attackVector InLattice)

variable {n : Nat}

theorem assert_pos {p : Prop} [Decidable p] (h : p) : assert p = some () := by simp [assert, h]

/-! ## The random subset -/

theorem filter_range_length (p : Nat → Bool) (L : List Nat) :
    ((List.range L.length).filter fun j => p (L.getD j 0)).length = L.countP p := by
  have h : L = (List.range L.length).map fun j => L.getD j 0 := by
    apply List.ext_getElem
    · simp
    · intro i h1 h2
      rw [List.getElem_map, List.getElem_range, List.getD_eq_getElem _ _ h1]
  conv_rhs => rw [h]
  rw [List.countP_map, List.countP_eq_length_filter]
  rfl

theorem randomsubset_length (N m : Nat) (hm : m ≤ N) (draw : Nat → Nat) : (randomsubset N m draw).length = m := by
  unfold randomsubset
  set L := (List.range m).map (fun j => 2 * draw j + 1) ++ (List.range (N - m)).map (fun j => 2 * draw (m + j)) with hL
  have hlen : (L.mergeSort (fun a b => decide (a ≤ b))).length = N := by
    rw [List.length_mergeSort, hL]; simp; omega
  have := filter_range_length (fun x => decide (x % 2 = 1)) (L.mergeSort (fun a b => decide (a ≤ b)))
  rw [hlen] at this
  simp only at this ⊢
  rw [this, (List.mergeSort_perm L _).countP_eq, hL, List.countP_append, List.countP_map, List.countP_map]
  have h1 : (List.range m).countP ((fun x => decide (x % 2 = 1)) ∘ fun j => 2 * draw j + 1) = m := by
    rw [List.countP_eq_length.2]
    · simp
    · intro a _; simp
  have h2 : (List.range (N - m)).countP ((fun x => decide (x % 2 = 1)) ∘ fun j => 2 * draw (m + j)) = 0 := by
    rw [List.countP_eq_zero]
    intro a _; simp
  rw [h1, h2, Nat.add_zero]

theorem randomsubset_lt (N m : Nat) (draw : Nat → Nat) : ∀ j ∈ randomsubset N m draw, j < N := by
  intro j hj
  simp only [randomsubset, List.mem_filter, List.mem_range] at hj
  exact hj.1

theorem randomsubset_sorted (N m : Nat) (draw : Nat → Nat) : (randomsubset N m draw).Pairwise (· < ·) := by
  unfold randomsubset
  exact List.Pairwise.filter _ List.pairwise_lt_range

/-! ## The ring -/

theorem ringMul_zero (b : R n) : ringMul 0 b = 0 := by
  funext k; simp [ringMul]

theorem ringMul_sum (c : Fin n → Int) (b : R n) : ringMul c b = ∑ i, c i • ringMul (xpow i.val) b := by
  funext k
  simp only [ringMul, Finset.sum_apply, Pi.smul_apply, smul_eq_mul, xpow]
  refine Finset.sum_congr rfl fun i _ => ?_
  symm
  rw [Finset.mul_sum, Finset.sum_eq_single i]
  · rw [Finset.mul_sum]
    refine Finset.sum_congr rfl fun j _ => ?_
    split_ifs <;> simp_all
  · intro a _ ha
    have : a.val ≠ i.val := fun h => ha (Fin.ext h)
    simp [this]
  · simp

theorem extract_eq (S : List Nat) (e1 e2 : R n) : extract S e1 e2 = S.map (pairCoord e1 e2) := by
  unfold extract
  refine List.map_congr_left fun j _ => ?_
  unfold pairCoord
  split_ifs with h1 h2
  · rw [List.getD_append _ _ _ _ (by simpa using h1), List.getD_eq_getElem _ _ (by simpa using h1)]; simp
  · rw [List.getD_append_right _ _ _ _ (by simpa using h1), List.getD_eq_getElem _ _ (by simpa using h2)]; simp
  · rw [List.getD_append_right _ _ _ _ (by simpa using h1), List.getD_eq_default _ _ (by simpa using h2)]

theorem P_eq (q : Nat) (X : Instance n) (S : List Nat) (z : Int) (a1 a2 r1 r2 : R n) :
    P q X S (z, a1, a2, r1, r2) = attackVector S
      (z • X.A1 - ringMul a1 X.G11 - ringMul a2 X.G21 + (q : Int) • r1)
      (z • X.A2 - ringMul a1 X.G12 - ringMul a2 X.G22 + (q : Int) • r2) z a1 a2 := by
  simp [P, attackVector, extract_eq]

theorem pairCoord_add (a b c d : R n) (j : Nat) : pairCoord (a + b) (c + d) j = pairCoord a c j + pairCoord b d j := by
  unfold pairCoord; split_ifs <;> simp

theorem pairCoord_sub (a b c d : R n) (j : Nat) : pairCoord (a - b) (c - d) j = pairCoord a c j - pairCoord b d j := by
  unfold pairCoord; split_ifs <;> simp

theorem pairCoord_smul (t : Int) (a b : R n) (j : Nat) : pairCoord (t • a) (t • b) j = t * pairCoord a b j := by
  unfold pairCoord; split_ifs <;> simp

theorem pairCoord_sum {ι : Type} [Fintype ι] (f g : ι → R n) (j : Nat) :
    pairCoord (∑ i, f i) (∑ i, g i) j = ∑ i, pairCoord (f i) (g i) j := by
  unfold pairCoord; split_ifs <;> simp

/-! ## The generated instances -/

theorem round8offset_eq (r : R n) : round8offset r = some fun i => (4 - r i) % 8 - 4 := by
  unfold round8offset
  dsimp only
  rw [assert_pos, assert_pos, assert_pos]
  · rfl
  all_goals intro i; omega

theorem divq_eq (q : Nat) (r : R n) (h : ∀ i, r i % q = 0) : divq q r = some fun i => r i / q := by
  unfold divq
  rw [assert_pos h]
  rfl

/-- The errors of an instance. -/
def errors {q : Nat} (D : Draws n q) (rounding : Bool) : R n × R n :=
  if rounding then
    (fun i => (4 - (ringMul (randomsmall D.coin1) (randomq D.g11) + ringMul (randomsmall D.coin2) (randomq D.g21)) i) % 8 - 4,
     fun i => (4 - (ringMul (randomsmall D.coin1) (randomq D.g12) + ringMul (randomsmall D.coin2) (randomq D.g22)) i) % 8 - 4)
  else (noise8 D.e1, noise8 D.e2)

/-- The value of `input`. -/
def inputVal {q : Nat} (D : Draws n q) (rounding : Bool) : Instance n :=
  let Z1 := ringMul (randomsmall D.coin1) (randomq D.g11) + ringMul (randomsmall D.coin2) (randomq D.g21) + (errors D rounding).1
  let Z2 := ringMul (randomsmall D.coin1) (randomq D.g12) + ringMul (randomsmall D.coin2) (randomq D.g22) + (errors D rounding).2
  { a1 := randomsmall D.coin1, a2 := randomsmall D.coin2, e1 := (errors D rounding).1, e2 := (errors D rounding).2
    r1 := fun i => (Z1 - reduce q Z1) i / q, r2 := fun i => (Z2 - reduce q Z2) i / q
    G11 := randomq D.g11, G12 := randomq D.g12, G21 := randomq D.g21, G22 := randomq D.g22
    A1 := reduce q Z1, A2 := reduce q Z2 }

theorem sub_reduce (q : Nat) (Z : R n) (i : Fin n) : (Z - reduce q Z) i % q = 0 := by
  simp [reduce]

theorem input_eq {q : Nat} (D : Draws n q) (rounding : Bool) : input D rounding = some (inputVal D rounding) := by
  cases rounding
  · simp only [input, Bool.false_eq_true, if_false, pure, Option.bind_eq_bind, Option.bind_some]
    rw [divq_eq _ _ (sub_reduce _ _), Option.bind_some, divq_eq _ _ (sub_reduce _ _)]
    rfl
  · simp only [input, if_true, pure, Option.bind_eq_bind, round8offset_eq, Option.bind_some]
    rw [divq_eq _ _ (sub_reduce _ _), Option.bind_some, divq_eq _ _ (sub_reduce _ _)]
    rfl

theorem A1_relation {q : Nat} (D : Draws n q) (rounding : Bool) :
    (inputVal D rounding).e1 = (1 : Int) • (inputVal D rounding).A1 - ringMul (inputVal D rounding).a1 (inputVal D rounding).G11
      - ringMul (inputVal D rounding).a2 (inputVal D rounding).G21 + (q : Int) • (inputVal D rounding).r1 := by
  funext i
  have h := sub_reduce q (ringMul (randomsmall D.coin1) (randomq D.g11) + ringMul (randomsmall D.coin2) (randomq D.g21) + (errors D rounding).1) i
  have h2 := Int.mul_ediv_cancel' (Int.dvd_of_emod_eq_zero h)
  simp only [inputVal, Pi.add_apply, Pi.sub_apply, Pi.smul_apply, smul_eq_mul] at h2 ⊢
  linarith

theorem A2_relation {q : Nat} (D : Draws n q) (rounding : Bool) :
    (inputVal D rounding).e2 = (1 : Int) • (inputVal D rounding).A2 - ringMul (inputVal D rounding).a1 (inputVal D rounding).G12
      - ringMul (inputVal D rounding).a2 (inputVal D rounding).G22 + (q : Int) • (inputVal D rounding).r2 := by
  funext i
  have h := sub_reduce q (ringMul (randomsmall D.coin1) (randomq D.g12) + ringMul (randomsmall D.coin2) (randomq D.g22) + (errors D rounding).2) i
  have h2 := Int.mul_ediv_cancel' (Int.dvd_of_emod_eq_zero h)
  simp only [inputVal, Pi.add_apply, Pi.sub_apply, Pi.smul_apply, smul_eq_mul] at h2 ⊢
  linarith

/-! ## The lattice -/

/-- Rows and columns of the matrix by their meaning. -/
abbrev Ix (n m : Nat) := (Unit ⊕ (Fin n ⊕ Fin n)) ⊕ Fin m

/-- Rows: the one for `z`, those for `a1`, those for `a2`, those for the chosen coordinates. -/
def rowIx (n m : Nat) : Ix n m ≃ Fin (m + 1 + 2 * n) :=
  ((((finOneEquiv.symm.sumCongr (finSumFinEquiv (m := n) (n := n))).trans finSumFinEquiv).sumCongr (Equiv.refl _)).trans
    finSumFinEquiv).trans (finCongr (by omega))

/-- Columns: the chosen coordinates come first. -/
def colIx (n m : Nat) : Ix n m ≃ Fin (m + 1 + 2 * n) :=
  (((Equiv.sumComm _ _).trans ((Equiv.refl _).sumCongr ((finOneEquiv.symm.sumCongr (finSumFinEquiv (m := n) (n := n))).trans finSumFinEquiv))).trans
    finSumFinEquiv).trans (finCongr (by omega))

theorem rowIx_z (n m : Nat) : (rowIx n m (.inl (.inl ()))).val = 0 := by simp [rowIx]
theorem rowIx_a1 (n m : Nat) (i : Fin n) : (rowIx n m (.inl (.inr (.inl i)))).val = 1 + i := by simp [rowIx]
theorem rowIx_a2 (n m : Nat) (i : Fin n) : (rowIx n m (.inl (.inr (.inr i)))).val = 1 + n + i := by simp [rowIx]; omega
theorem rowIx_e (n m : Nat) (i : Fin m) : (rowIx n m (.inr i)).val = 1 + n + n + i := by simp [rowIx]; omega
theorem colIx_z (n m : Nat) : (colIx n m (.inl (.inl ()))).val = m := by simp [colIx]
theorem colIx_a1 (n m : Nat) (i : Fin n) : (colIx n m (.inl (.inr (.inl i)))).val = m + 1 + i := by simp [colIx]; omega
theorem colIx_a2 (n m : Nat) (i : Fin n) : (colIx n m (.inl (.inr (.inr i)))).val = m + 1 + n + i := by simp [colIx]; omega
theorem colIx_e (n m : Nat) (i : Fin m) : (colIx n m (.inr i)).val = i := by simp [colIx]

theorem cinbasis_length (S : List Nat) : (cinbasis (n := n) S).length = S.length + 1 + 2 * n := by
  simp [cinbasis]; omega

theorem coutbasis_length (q : Nat) (X : Instance n) (S : List Nat) : (coutbasis q X S).length = S.length + 1 + 2 * n := by
  simp [coutbasis, cinbasis_length]

/-- The tuple of a row. -/
def tupleOf (S : List Nat) : Ix n S.length → Int × R n × R n × R n × R n
  | .inl (.inl ()) => (1, 0, 0, 0, 0)
  | .inl (.inr (.inl i)) => (0, xpow i, 0, 0, 0)
  | .inl (.inr (.inr i)) => (0, 0, xpow i, 0, 0)
  | .inr j => if S[j] < n then (0, 0, 0, xpow S[j], 0) else (0, 0, 0, 0, xpow (S[j] - n))

theorem cinbasis_row (S : List Nat) (k : Ix n S.length) :
    (cinbasis S)[(rowIx n S.length k).val]'(by rw [cinbasis_length]; exact (rowIx n S.length k).isLt) = tupleOf S k := by
  rcases k with (⟨⟨⟩⟩ | i | i) | j
  · simp only [rowIx_z]; simp [cinbasis, tupleOf]
  · simp only [rowIx_a1]
    have := i.isLt
    simp only [cinbasis, tupleOf, List.append_assoc]
    rw [List.getElem_append_right (by simp), List.getElem_append_left (by simp)]
    simp
  · simp only [rowIx_a2]
    simp only [cinbasis, tupleOf, List.append_assoc]
    rw [List.getElem_append_right (by simp; omega), List.getElem_append_right (by simp; omega), List.getElem_append_left (by simp; omega)]
    have h : 1 + n + i.val - 1 - n = i.val := by omega
    simp [h]
  · simp only [rowIx_e]
    simp only [cinbasis, tupleOf, List.append_assoc]
    rw [List.getElem_append_right (by simp; omega), List.getElem_append_right (by simp; omega), List.getElem_append_right (by simp; omega)]
    have h : 1 + n + n + j.val - 1 - n - n = j.val := by omega
    simp [h]

theorem attackVector_e (S : List Nat) (e1 e2 : R n) (z : Int) (a1 a2 : R n) (i : Fin S.length) :
    (attackVector S e1 e2 z a1 a2).getD (colIx n S.length (.inr i)).val 0 = pairCoord e1 e2 S[i] := by
  rw [colIx_e, attackVector, List.getD_append _ _ _ _ (by simp), List.getD_eq_getElem _ _ (by simp)]
  simp

theorem attackVector_z (S : List Nat) (e1 e2 : R n) (z : Int) (a1 a2 : R n) :
    (attackVector S e1 e2 z a1 a2).getD (colIx n S.length (.inl (.inl ()))).val 0 = z := by
  rw [colIx_z, attackVector, List.getD_append_right _ _ _ _ (by simp)]
  simp

theorem attackVector_a1 (S : List Nat) (e1 e2 : R n) (z : Int) (a1 a2 : R n) (i : Fin n) :
    (attackVector S e1 e2 z a1 a2).getD (colIx n S.length (.inl (.inr (.inl i)))).val 0 = a1 i := by
  rw [colIx_a1, attackVector, List.getD_append_right _ _ _ _ (by simp; omega)]
  have h : S.length + 1 + i.val - (S.map (pairCoord e1 e2)).length = i.val + 1 := by simp; omega
  rw [h, List.getD_cons_succ, List.getD_append _ _ _ _ (by simp), List.getD_eq_getElem _ _ (by simp)]
  simp

theorem attackVector_a2 (S : List Nat) (e1 e2 : R n) (z : Int) (a1 a2 : R n) (i : Fin n) :
    (attackVector S e1 e2 z a1 a2).getD (colIx n S.length (.inl (.inr (.inr i)))).val 0 = a2 i := by
  rw [colIx_a2, attackVector, List.getD_append_right _ _ _ _ (by simp; omega)]
  have h : S.length + 1 + n + i.val - (S.map (pairCoord e1 e2)).length = (n + i.val) + 1 := by simp; omega
  rw [h, List.getD_cons_succ, List.getD_append_right _ _ _ _ (by simp), List.getD_eq_getElem _ _ (by simp)]
  simp

/-- An entry of the matrix. -/
theorem entry (q : Nat) (X : Instance n) (S : List Nat) (k l : Ix n S.length) :
    toMatrix (S.length + 1 + 2 * n) (coutbasis q X S) (rowIx n S.length k) (colIx n S.length l) =
      (P q X S (tupleOf S k)).getD (colIx n S.length l).val 0 := by
  unfold toMatrix
  rw [List.getD_eq_getElem (coutbasis q X S) [] (by rw [coutbasis_length]; exact (rowIx n S.length k).isLt)]
  unfold coutbasis
  rw [List.getElem_map, cinbasis_row]

theorem xpow_val (i j : Fin n) : (xpow i.val : R n) j = if j = i then 1 else 0 := by
  simp [xpow, Fin.ext_iff]

/-- The upper right block. -/
def blockB (q : Nat) (X : Instance n) (S : List Nat) : Matrix (Unit ⊕ (Fin n ⊕ Fin n)) (Fin S.length) Int :=
  Matrix.of fun k i => (P q X S (tupleOf S (.inl k))).getD (colIx n S.length (.inr i)).val 0

theorem block11 (q : Nat) (X : Instance n) (S : List Nat) (k l : Unit ⊕ (Fin n ⊕ Fin n)) :
    (P q X S (tupleOf S (.inl k))).getD (colIx n S.length (.inl l)).val 0 = if k = l then 1 else 0 := by
  rcases k with ⟨⟨⟩⟩ | i | i <;> rcases l with ⟨⟨⟩⟩ | i' | i' <;>
    simp only [tupleOf, P_eq, attackVector_z, attackVector_a1, attackVector_a2, xpow_val] <;> simp [eq_comm]

theorem block21 (q : Nat) (X : Instance n) (S : List Nat) (k : Fin S.length) (l : Unit ⊕ (Fin n ⊕ Fin n)) :
    (P q X S (tupleOf S (.inr k))).getD (colIx n S.length (.inl l)).val 0 = 0 := by
  rcases l with ⟨⟨⟩⟩ | i' | i' <;> simp only [tupleOf] <;> split_ifs <;>
    simp only [P_eq, attackVector_z, attackVector_a1, attackVector_a2] <;> rfl

theorem block22 (q : Nat) (X : Instance n) (S : List Nat) (hS : S.Pairwise (· < ·)) (hlt : ∀ j ∈ S, j < 2 * n) (k l : Fin S.length) :
    (P q X S (tupleOf S (.inr k))).getD (colIx n S.length (.inr l)).val 0 = if k = l then (q : Int) else 0 := by
  have hk := hlt S[k] (List.getElem_mem _)
  have hl := hlt S[l] (List.getElem_mem _)
  have hinj : S[k] = S[l] ↔ k = l := by
    constructor
    · intro h
      exact Fin.ext ((List.Nodup.getElem_inj_iff (hS.imp fun h => Nat.ne_of_lt h)).1 h)
    · rintro rfl; rfl
  have hz : (0 : Int) • X.A1 - ringMul 0 X.G11 - ringMul 0 X.G21 = 0 := by simp [ringMul_zero]
  have hz' : (0 : Int) • X.A2 - ringMul 0 X.G12 - ringMul 0 X.G22 = 0 := by simp [ringMul_zero]
  simp only [tupleOf]
  split_ifs with h1 h2 h2 <;> simp only [P_eq, attackVector_e, hz, hz', zero_add, smul_zero] <;> unfold pairCoord <;>
    split_ifs with h3 h4 <;> first | rfl | (exfalso; rw [← hinj] at h2; omega) | (simp only [Pi.smul_apply, smul_eq_mul, xpow, mul_ite, mul_one, mul_zero]; rw [← hinj] at h2; split_ifs <;> first | rfl | (exfalso; omega))

/-- The block structure. -/
theorem blocks (q : Nat) (X : Instance n) (S : List Nat) (hS : S.Pairwise (· < ·)) (hlt : ∀ j ∈ S, j < 2 * n) :
    (toMatrix (S.length + 1 + 2 * n) (coutbasis q X S)).submatrix (rowIx n S.length) (colIx n S.length) =
      Matrix.fromBlocks 1 (blockB q X S) 0 ((q : Int) • 1) := by
  ext k l
  rw [Matrix.submatrix_apply, entry]
  rcases k with k | k <;> rcases l with l | l
  · rw [block11, Matrix.fromBlocks_apply₁₁, Matrix.one_apply]
  · rfl
  · rw [block21, Matrix.fromBlocks_apply₂₁]; rfl
  · rw [block22 q X S hS hlt, Matrix.fromBlocks_apply₂₂, Matrix.smul_apply, Matrix.one_apply]; simp

theorem blockB_sum (q : Nat) (X : Instance n) (S : List Nat) (z : Int) (a1 a2 : R n) (i : Fin S.length) :
    z * blockB q X S (.inl ()) i + (∑ k, a1 k * blockB q X S (.inr (.inl k)) i + ∑ k, a2 k * blockB q X S (.inr (.inr k)) i) =
      pairCoord (z • X.A1 - ringMul a1 X.G11 - ringMul a2 X.G21) (z • X.A2 - ringMul a1 X.G12 - ringMul a2 X.G22) S[i] := by
  simp only [blockB, Matrix.of_apply, tupleOf, P_eq, attackVector_e]
  rw [ringMul_sum a1 X.G11, ringMul_sum a2 X.G21, ringMul_sum a1 X.G12, ringMul_sum a2 X.G22]
  simp only [pairCoord_sub, pairCoord_sum, pairCoord_smul, pairCoord_add, ringMul_zero]
  have h0 : pairCoord (0 : R n) 0 S[i] = 0 := by unfold pairCoord; split_ifs <;> rfl
  simp only [h0]
  simp [sub_eq_add_neg, Finset.sum_neg_distrib]
  try ring

theorem det_eq (q : Nat) (X : Instance n) (S : List Nat) (hS : S.Pairwise (· < ·)) (hlt : ∀ j ∈ S, j < 2 * n) :
    |(toMatrix (S.length + 1 + 2 * n) (coutbasis q X S)).det| = (q : Int) ^ S.length := by
  rw [← Matrix.abs_det_submatrix_equiv_equiv (rowIx n S.length) (colIx n S.length), blocks q X S hS hlt,
    Matrix.det_fromBlocks_zero₂₁, Matrix.det_one, one_mul, Matrix.det_smul, Matrix.det_one]
  simp [abs_of_nonneg]

/-- The rows generate the lattice. -/
theorem lattice (q : Nat) (X : Instance n) (S : List Nat) (hS : S.Pairwise (· < ·)) (hlt : ∀ j ∈ S, j < 2 * n)
    (v : List Int) (hv : v.length = S.length + 1 + 2 * n) :
    (∃ c, (fun j : Fin (S.length + 1 + 2 * n) => v.getD j 0) = Matrix.vecMul c (toMatrix (S.length + 1 + 2 * n) (coutbasis q X S))) ↔
      InLattice q S X.A1 X.A2 X.G11 X.G12 X.G21 X.G22 v := by
  set M := toMatrix (S.length + 1 + 2 * n) (coutbasis q X S) with hM
  have hb := blocks q X S hS hlt
  rw [← hM] at hb
  have hent : ∀ k l, M (rowIx n S.length k) (colIx n S.length l) = Matrix.fromBlocks 1 (blockB q X S) 0 ((q : Int) • 1) k l := by
    intro k l; rw [← hb]; rfl
  have hcol : ∀ c l, Matrix.vecMul c M (colIx n S.length l) =
      ∑ k, c (rowIx n S.length k) * Matrix.fromBlocks 1 (blockB q X S) 0 ((q : Int) • 1) k l := by
    intro c l
    rw [Matrix.vecMul, dotProduct, ← (rowIx n S.length).sum_comp]
    exact Finset.sum_congr rfl fun k _ => by rw [hent]
  have hrest : ∀ c l, Matrix.vecMul c M (colIx n S.length (.inl l)) = c (rowIx n S.length (.inl l)) := by
    intro c l
    rw [hcol, Fintype.sum_sum_type]
    simp only [Matrix.fromBlocks_apply₁₁, Matrix.fromBlocks_apply₂₁, Matrix.one_apply, Matrix.zero_apply, mul_zero, Finset.sum_const_zero,
      add_zero, mul_ite, mul_one]
    simp
  have he : ∀ c i, Matrix.vecMul c M (colIx n S.length (.inr i)) =
      pairCoord (c (rowIx n S.length (.inl (.inl ()))) • X.A1 - ringMul (fun k => c (rowIx n S.length (.inl (.inr (.inl k))))) X.G11
          - ringMul (fun k => c (rowIx n S.length (.inl (.inr (.inr k))))) X.G21)
        (c (rowIx n S.length (.inl (.inl ()))) • X.A2 - ringMul (fun k => c (rowIx n S.length (.inl (.inr (.inl k))))) X.G12
          - ringMul (fun k => c (rowIx n S.length (.inl (.inr (.inr k))))) X.G22) S[i] + q * c (rowIx n S.length (.inr i)) := by
    intro c i
    rw [hcol, Fintype.sum_sum_type, ← blockB_sum q, Fintype.sum_sum_type, Fintype.sum_sum_type]
    simp only [Matrix.fromBlocks_apply₁₂, Matrix.fromBlocks_apply₂₂, Matrix.smul_apply, Matrix.one_apply, Finset.univ_unique,
      Finset.sum_singleton]
    congr 1
    rw [Finset.sum_eq_single i]
    · simp [mul_comm]
    · intro b _ hb; simp [hb]
    · simp
  constructor
  · rintro ⟨c, hc⟩
    have hcv : ∀ l, v.getD (colIx n S.length l).val 0 = Matrix.vecMul c M (colIx n S.length l) := fun l => congrFun hc _
    let w : Nat → Int := fun j => v.getD (S.idxOf j) 0
    have hw : ∀ i : Fin S.length, S[i] < 2 * n →
        pairCoord (n := n) (fun i => w i) (fun i => w (n + i)) S[i] = v.getD i.val 0 := by
      intro i hi
      have hw' : w S[i] = v.getD i.val 0 := by
        show v.getD (S.idxOf S[i]) 0 = _
        congr 1
        exact List.Nodup.idxOf_getElem (hS.imp fun h => Nat.ne_of_lt h) _ _
      rw [← hw']
      unfold pairCoord
      split_ifs with h1 h2
      · rfl
      · show w (n + (S[i] - n)) = _
        rw [Nat.add_sub_cancel' (by omega)]
      · omega
    refine ⟨fun i => w i, fun i => w (n + i), c (rowIx n S.length (.inl (.inl ()))), fun k => c (rowIx n S.length (.inl (.inr (.inl k)))),
      fun k => c (rowIx n S.length (.inl (.inr (.inr k)))), ?_, ?_⟩
    · apply List.ext_getElem
      · simp [attackVector, hv]; omega
      · intro j h1 h2
        rw [← List.getD_eq_getElem _ 0 h1, ← List.getD_eq_getElem _ 0 h2]
        rw [hv] at h1
        obtain ⟨l, hl⟩ := (colIx n S.length).surjective ⟨j, h1⟩
        have hj : j = (colIx n S.length l).val := by rw [hl]
        rw [hj]
        rcases l with (⟨⟨⟩⟩ | i | i) | i
        · rw [attackVector_z, hcv, hrest]
        · rw [attackVector_a1, hcv, hrest]
        · rw [attackVector_a2, hcv, hrest]
        · rw [attackVector_e, hw, colIx_e]
          exact hlt _ (List.getElem_mem _)
    · intro j hj
      obtain ⟨i, hi, rfl⟩ := List.getElem_of_mem hj
      have h1 := hcv (.inr ⟨i, hi⟩)
      have h2 := hw ⟨i, hi⟩ (hlt _ (List.getElem_mem _))
      rw [he, colIx_e] at h1
      simp only [Fin.getElem_fin] at h1 h2
      rw [h2, h1]
      exact (Int.modEq_iff_dvd.2 ⟨c (rowIx n S.length (.inr ⟨i, hi⟩)), by ring⟩).symm
  · rintro ⟨e1, e2, z, a1, a2, rfl, h⟩
    have h' : ∀ i : Fin S.length, ∃ t : Int, pairCoord e1 e2 S[i] = pairCoord (z • X.A1 - ringMul a1 X.G11 - ringMul a2 X.G21)
        (z • X.A2 - ringMul a1 X.G12 - ringMul a2 X.G22) S[i] + q * t := by
      intro i
      obtain ⟨t, ht⟩ := (h S[i] (List.getElem_mem _)).symm.dvd
      exact ⟨t, by linarith⟩
    choose t ht using h'
    refine ⟨fun r => match (rowIx n S.length).symm r with
      | .inl (.inl ()) => z
      | .inl (.inr (.inl k)) => a1 k
      | .inl (.inr (.inr k)) => a2 k
      | .inr i => t i, ?_⟩
    funext j
    obtain ⟨l, rfl⟩ := (colIx n S.length).surjective j
    rcases l with (⟨⟨⟩⟩ | i | i) | i
    · rw [hrest, attackVector_z]; simp
    · rw [hrest, attackVector_a1]; simp
    · rw [hrest, attackVector_a2]; simp
    · rw [he, attackVector_e, ht]; simp


/-! ## No assertion fails -/

theorem doitM_eq (red : Nat → List (List Int) → List (List Int)) {q : Nat} (D : Draws n q) (rounding : Bool) (draw : Nat → Nat) (m : Nat)
    (hm : m ≤ 2 * n) :
    doitM red q (inputVal D rounding) rounding draw m =
      some (betas red (inputVal D rounding) rounding m (coutbasis q (inputVal D rounding) (randomsubset (2 * n) m draw)) false (range2 2 21)) := by
  have hlen := randomsubset_length (2 * n) m hm draw
  have hlt := randomsubset_lt (2 * n) m draw
  have hsort := randomsubset_sorted (2 * n) m draw
  unfold doitM
  dsimp only
  rw [assert_pos, assert_pos hlen, assert_pos hlt, assert_pos, assert_pos, assert_pos, assert_pos]
  · rfl
  · have := det_eq q (inputVal D rounding) _ hsort hlt
    rw [hlen] at this
    exact this
  · rw [coutbasis_length, hlen]
  · rw [cinbasis_length, hlen]
  · rw [P_eq, ← A1_relation, ← A2_relation, extract_eq]
    simp [attackVector]
  · symm
    apply List.mergeSort_of_pairwise
    exact hsort.imp fun h => by simpa using Nat.le_of_lt h

theorem range2_mem (a b x : Nat) (h : x ∈ range2 a b) : a ≤ x ∧ x < b ∧ (x - a) % 2 = 0 := by
  simp only [range2, List.mem_map, List.mem_range] at h
  obtain ⟨i, hi, rfl⟩ := h
  omega

theorem mapM_some {α β : Type} (f : α → Option β) (g : α → β) (l : List α) (h : ∀ x ∈ l, f x = some (g x)) :
    l.mapM f = some (l.map g) := by
  induction l with
  | nil => rfl
  | cons a l ih =>
    rw [List.mapM_cons, h a (by simp), ih fun x hx => h x (by simp [hx])]
    rfl

theorem reduce_range {q : Nat} (hq : 0 < q) (r : R n) (i : Fin n) : 0 ≤ reduce q r i ∧ reduce q r i < q := by
  unfold reduce
  have : (q : Int) ≠ 0 := by omega
  exact ⟨Int.emod_nonneg _ this, Int.emod_lt_of_pos _ (by omega)⟩

/-- The rows of one run. -/
def runRows (red : Nat → List (List Int) → List (List Int)) {q : Nat} (D : Draws n q) (rounding : Bool) (draw : Nat → Nat → Nat) : List Row :=
  ((range2 n (2 * n + 1)).map fun m =>
    betas red (inputVal D rounding) rounding m (coutbasis q (inputVal D rounding) (randomsubset (2 * n) m (draw m))) false (range2 2 21)).flatten

theorem doit_eq (red : Nat → List (List Int) → List (List Int)) {q : Nat} (hq : 0 < q) (D : Draws n q) (rounding : Bool)
    (draw : Nat → Nat → Nat) :
    doit red q rounding (inputVal D rounding) draw = some (runRows red D rounding draw) := by
  unfold doit
  have hg : ∀ (g : Fin n → Fin q) (i : Fin n), 0 ≤ randomq g i ∧ randomq g i < q := by
    intro g i; simp [randomq]
  have hr := fun r => reduce_range (n := n) hq r
  have hp : ∀ r : R n, (∀ i, 0 ≤ r i ∧ r i < q) → assert (∀ i, 0 ≤ r i) = some () ∧ assert (∀ i, r i < q) = some () :=
    fun r h => ⟨assert_pos fun i => (h i).1, assert_pos fun i => (h i).2⟩
  simp only [List.forIn_cons, List.forIn_nil]
  have e1 := hp (inputVal D rounding).G11 (hg _)
  have e2 := hp (inputVal D rounding).G12 (hg _)
  have e3 := hp (inputVal D rounding).G21 (hg _)
  have e4 := hp (inputVal D rounding).G22 (hg _)
  have e5 := hp (inputVal D rounding).A1 (hr _)
  have e6 := hp (inputVal D rounding).A2 (hr _)
  simp only [e1.1, e1.2, e2.1, e2.2, e3.1, e3.2, e4.1, e4.2, e5.1, e5.2, e6.1, e6.2, Option.bind_eq_bind, Option.bind_some, Option.pure_def]
  rw [mapM_some _ _ _ fun m hm => doitM_eq red D rounding (draw m) m (by have := range2_mem _ _ _ hm; omega)]
  rfl

/-! ## The rows and the summary -/

theorem betas_key (red : Nat → List (List Int) → List (List Int)) (X : Instance n) (rounding : Bool) (m : Nat) (bs : List Nat) :
    ∀ M success, (betas red X rounding m M success bs).map Row.key = bs.map fun b => (m, m + 1 + 2 * n, b, rounding) := by
  induction bs with
  | nil => intro M s; cases s <;> rfl
  | cons b bs ih =>
    intro M s
    cases s <;> simp only [betas, List.map_cons, ih] <;> rfl

/-- The keys of one run. -/
def runKeys (n : Nat) (rounding : Bool) : List (Nat × Nat × Nat × Bool) :=
  ((range2 n (2 * n + 1)).map fun m => (range2 2 21).map fun b => (m, m + 1 + 2 * n, b, rounding)).flatten

theorem runRows_key (red : Nat → List (List Int) → List (List Int)) {q : Nat} (D : Draws n q) (rounding : Bool) (draw : Nat → Nat → Nat) :
    (runRows red D rounding draw).map Row.key = runKeys n rounding := by
  unfold runRows runKeys
  rw [List.map_flatten, List.map_map]
  congr 1
  exact List.map_congr_left fun m _ => betas_key _ _ _ _ _ _ _

theorem range2_nodup (a b : Nat) : (range2 a b).Nodup := by
  unfold range2
  exact List.Nodup.map (fun x y h => by simpa using h) List.nodup_range

theorem mem_range2 (a b x : Nat) : x ∈ range2 a b ↔ a ≤ x ∧ x < b ∧ (x - a) % 2 = 0 := by
  refine ⟨range2_mem a b x, fun h => ?_⟩
  simp only [range2, List.mem_map, List.mem_range]
  exact ⟨(x - a) / 2, by omega, by omega⟩

theorem mem_runKeys (n : Nat) (r : Bool) (key : Nat × Nat × Nat × Bool) :
    key ∈ runKeys n r ↔ key.1 ∈ range2 n (2 * n + 1) ∧ key.2.1 = key.1 + 1 + 2 * n ∧ key.2.2.1 ∈ range2 2 21 ∧ key.2.2.2 = r := by
  obtain ⟨m, d, b, r'⟩ := key
  simp only [runKeys, List.mem_flatten, List.mem_map]
  constructor
  · rintro ⟨_, ⟨m', hm, rfl⟩, h⟩
    simp only [List.mem_map, Prod.mk.injEq] at h
    obtain ⟨b', hb, rfl, rfl, rfl, rfl⟩ := h
    exact ⟨hm, rfl, hb, rfl⟩
  · rintro ⟨hm, hd, hb, hr⟩
    subst hd hr
    exact ⟨_, ⟨m, hm, rfl⟩, List.mem_map.2 ⟨b, hb, rfl⟩⟩

theorem runKeys_nodup (n : Nat) (r : Bool) : (runKeys n r).Nodup := by
  unfold runKeys
  rw [List.nodup_flatten]
  constructor
  · intro l hl
    obtain ⟨m, _, rfl⟩ := List.mem_map.1 hl
    exact List.Nodup.map (fun x y h => by simpa using h) (range2_nodup _ _)
  · rw [List.pairwise_map]
    refine (range2_nodup n (2 * n + 1)).imp fun {a b} hab => ?_
    intro x hx hx'
    obtain ⟨_, _, rfl⟩ := List.mem_map.1 hx
    obtain ⟨_, _, h⟩ := List.mem_map.1 hx'
    simp at h
    exact hab h.1.symm

/-- All keys of one input. -/
def allKeys (n : Nat) : List (Nat × Nat × Nat × Bool) := runKeys n false ++ runKeys n true

theorem allKeys_nodup (n : Nat) : (allKeys n).Nodup := by
  unfold allKeys
  rw [List.nodup_append]
  refine ⟨runKeys_nodup _ _, runKeys_nodup _ _, ?_⟩
  rintro a ha b hb rfl
  rw [mem_runKeys] at ha hb
  rw [ha.2.2.2] at hb
  simp at hb

/-- The rows of one input. -/
def inputRows (red : Nat → List (List Int) → List (List Int)) {q : Nat} (D : Draws n q) (draw : Bool → Nat → Nat → Nat) : List Row :=
  runRows red D false (draw false) ++ runRows red D true (draw true)

theorem inputRows_key (red : Nat → List (List Int) → List (List Int)) {q : Nat} (D : Draws n q) (draw : Bool → Nat → Nat → Nat) :
    (inputRows red D draw).map Row.key = allKeys n := by
  unfold inputRows allKeys
  rw [List.map_append, runRows_key, runRows_key]

/-- All rows. -/
def allRows (red : Nat → List (List Int) → List (List Int)) {q N : Nat} (D : Fin N → Draws n q) (draw : Fin N → Bool → Nat → Nat → Nat) :
    List Row := ((List.finRange N).map fun i => inputRows red (D i) (draw i)).flatten

/-- Rows with a key: exactly one of every input. -/
theorem filter_inputRows (red : Nat → List (List Int) → List (List Int)) {q : Nat} (D : Draws n q) (draw : Bool → Nat → Nat → Nat)
    (row : Row) (h : row ∈ inputRows red D draw) :
    (inputRows red D draw).filter (fun r => decide (r.key = row.key)) = [row] := by
  have hn : ((inputRows red D draw).map Row.key).Nodup := by rw [inputRows_key]; exact allKeys_nodup n
  generalize inputRows red D draw = l at h hn
  induction l with
  | nil => simp at h
  | cons a l ih =>
    rw [List.map_cons, List.nodup_cons] at hn
    rw [List.filter_cons]
    rcases List.mem_cons.1 h with rfl | h
    · have : l.filter (fun r => decide (r.key = row.key)) = [] := by
        rw [List.filter_eq_nil_iff]
        intro r hr hk
        exact hn.1 (by rw [← of_decide_eq_true hk]; exact List.mem_map_of_mem hr)
      simp [this]
    · have : a.key ≠ row.key := fun hk => hn.1 (by rw [hk]; exact List.mem_map_of_mem h)
      simp [this, ih h hn.2]

theorem stats_flatten (ls : List (List Row)) (key : Nat × Nat × Nat × Bool) :
    stats ls.flatten key = (ls.map fun l => stats l key).flatten := by
  induction ls with
  | nil => rfl
  | cons l ls ih => rw [List.flatten_cons, List.map_cons, List.flatten_cons, ← ih]; simp [stats]

theorem mem_allRows_key (red : Nat → List (List Int) → List (List Int)) {q N : Nat} (D : Fin N → Draws n q)
    (draw : Fin N → Bool → Nat → Nat → Nat) (key : Nat × Nat × Nat × Bool) :
    key ∈ (allRows red D draw).map Row.key ↔ 0 < N ∧ key ∈ allKeys n := by
  unfold allRows
  rw [List.map_flatten, List.map_map]
  simp only [List.mem_flatten, List.mem_map, List.mem_finRange, true_and, Function.comp]
  constructor
  · rintro ⟨_, ⟨i, rfl⟩, h⟩
    rw [inputRows_key] at h
    exact ⟨i.pos, h⟩
  · rintro ⟨hN, h⟩
    exact ⟨_, ⟨⟨0, hN⟩, rfl⟩, by rw [inputRows_key]; exact h⟩

/-- The row of an input with a key, if there is one. -/
def successOf (red : Nat → List (List Int) → List (List Int)) {q : Nat} (D : Draws n q) (draw : Bool → Nat → Nat → Nat)
    (key : Nat × Nat × Nat × Bool) : Bool :=
  decide (∃ row ∈ inputRows red D draw, row.key = key ∧ row.success = true)

theorem stats_input (red : Nat → List (List Int) → List (List Int)) {q : Nat} (D : Draws n q) (draw : Bool → Nat → Nat → Nat)
    (key : Nat × Nat × Nat × Bool) (h : key ∈ allKeys n) :
    stats (inputRows red D draw) key = [successOf red D draw key] := by
  rw [← inputRows_key red D draw, List.mem_map] at h
  obtain ⟨row, hrow, rfl⟩ := h
  have hf := filter_inputRows red D draw row hrow
  unfold stats
  rw [hf, List.map_singleton]
  congr 1
  unfold successOf
  by_cases hs : row.success = true
  · rw [hs]; symm; rw [decide_eq_true_iff]; exact ⟨row, hrow, rfl, hs⟩
  · rw [Bool.not_eq_true] at hs
    rw [hs]; symm; rw [decide_eq_false_iff_not]
    rintro ⟨row', h', hk, hs'⟩
    have : row' ∈ (inputRows red D draw).filter (fun r => decide (r.key = row.key)) := by
      rw [List.mem_filter]; exact ⟨h', by simpa using hk⟩
    rw [hf, List.mem_singleton] at this
    rw [this, hs] at hs'
    exact absurd hs' (by decide)

theorem stats_allRows (red : Nat → List (List Int) → List (List Int)) {q N : Nat} (D : Fin N → Draws n q)
    (draw : Fin N → Bool → Nat → Nat → Nat) (key : Nat × Nat × Nat × Bool) (h : key ∈ allKeys n) :
    stats (allRows red D draw) key = (List.finRange N).map fun i => successOf red (D i) (draw i) key := by
  unfold allRows
  rw [stats_flatten, List.map_map]
  have : ((fun l => stats l key) ∘ fun i => inputRows red (D i) (draw i)) = fun i => [successOf red (D i) (draw i) key] := by
    funext i; exact stats_input _ _ _ _ h
  rw [this]
  generalize List.finRange N = l
  induction l with
  | nil => rfl
  | cons a l ih => simp [ih]

/-- The summary lines. -/
def summary (red : Nat → List (List Int) → List (List Int)) {q N : Nat} (D : Fin N → Draws n q)
    (draw : Fin N → Bool → Nat → Nat → Nat) : List Summary :=
  ((allRows red D draw).map Row.key).dedup.map fun key =>
    ⟨key, (Finset.univ.filter fun i => successOf red (D i) (draw i) key = true).card, N⟩

theorem count_finRange {N : Nat} (f : Fin N → Bool) :
    ((List.finRange N).map f).count true = (Finset.univ.filter fun i => f i = true).card := by
  rw [List.count, List.countP_map, List.countP_eq_length_filter]
  rw [Finset.card_def, Finset.filter_val, ← Multiset.countP_eq_card_filter]
  rw [show (Finset.univ : Finset (Fin N)).val = (List.finRange N : Multiset (Fin N)) from rfl, Multiset.coe_countP,
    List.countP_eq_length_filter]
  congr 1

theorem main_eq (red : Nat → List (List Int) → List (List Int)) {q N : Nat} (hq : 0 < q) (D : Fin N → Draws n q)
    (draw : Fin N → Bool → Nat → Nat → Nat) : main red n q N D draw = some (summary red D draw) := by
  unfold main
  rw [mapM_some _ (fun i => inputRows red (D i) (draw i))]
  · simp only [Option.bind_eq_bind, Option.bind_some]
    refine mapM_some _ _ _ fun key hkey => ?_
    have hk := ((mem_allRows_key red D draw key).1 (List.mem_dedup.1 hkey)).2
    have hs := stats_allRows red D draw key hk
    unfold allRows at hs
    simp only [hs]
    rw [assert_pos (by simp)]
    simp only [Option.bind_some, Option.pure_def, List.length_map, List.length_finRange, count_finRange]
  · intro i _
    simp only [input_eq, Option.bind_eq_bind, Option.bind_some, doit_eq red hq, Option.pure_def]
    rfl

/-! ## When a run succeeds -/

/-- The shortest row of `M` carries the secret. -/
def hit (X : Instance n) (m : Nat) (M : List (List Int)) : Bool := decide (readSecret m (shortest M) = (X.a1, X.a2))

/-- The matrix after the reductions `bs`. -/
def reducedBy (red : Nat → List (List Int) → List (List Int)) (M : List (List Int)) (bs : List Nat) : List (List Int) :=
  bs.foldl (fun M b => red b M) M

theorem betas_true (red : Nat → List (List Int) → List (List Int)) (X : Instance n) (rounding : Bool) (m : Nat) (bs : List Nat) (M) :
    ∀ row ∈ betas red X rounding m M true bs, row.success = true := by
  induction bs with
  | nil => intro row h; simp [betas] at h
  | cons b bs ih =>
    intro row h
    rcases List.mem_cons.1 h with rfl | h
    · rfl
    · exact ih row h

theorem betas_length (red : Nat → List (List Int) → List (List Int)) (X : Instance n) (rounding : Bool) (m : Nat) (bs : List Nat) (M s) :
    (betas red X rounding m M s bs).length = bs.length := by
  have := congrArg List.length (betas_key red X rounding m bs M s)
  simpa using this

theorem betas_success (red : Nat → List (List Int) → List (List Int)) (X : Instance n) (rounding : Bool) (m : Nat) (bs : List Nat) :
    ∀ M k (hk : k < bs.length),
      ((betas red X rounding m M false bs)[k]'(by rw [betas_length]; exact hk)).success = true ↔
        ∃ k' ≤ k, hit X m (reducedBy red M (bs.take (k' + 1))) = true := by
  induction bs with
  | nil => intro M k hk; simp at hk
  | cons b bs ih =>
    intro M k hk
    cases k with
    | zero =>
      simp only [betas, List.getElem_cons_zero]
      constructor
      · intro h; exact ⟨0, le_rfl, h⟩
      · rintro ⟨k', hk', h⟩
        obtain rfl : k' = 0 := by omega
        exact h
    | succ k =>
      have hk2 : k < bs.length := by simpa using hk
      simp only [betas, List.getElem_cons_succ]
      suffices key : ∀ s (hl : k < (betas red X rounding m (red b M) s bs).length),
          s = decide (readSecret m (shortest (red b M)) = (X.a1, X.a2)) →
          (((betas red X rounding m (red b M) s bs)[k]'hl).success = true ↔
            ∃ k' ≤ k + 1, hit X m (reducedBy red M (List.take (k' + 1) (b :: bs))) = true) from key _ _ rfl
      intro s hl hh
      replace hh := hh.symm
      cases s with
      | true =>
        constructor
        · intro _
          exact ⟨0, Nat.zero_le _, hh⟩
        · intro _
          exact betas_true _ _ _ _ _ _ _ (List.getElem_mem _)
      | false =>
        rw [ih (red b M) k hk2]
        constructor
        · rintro ⟨k', hk', h⟩
          exact ⟨k' + 1, by omega, h⟩
        · rintro ⟨k', hk', h⟩
          cases k' with
          | zero =>
            have h' : decide (readSecret m (shortest (red b M)) = (X.a1, X.a2)) = true := h
            rw [hh] at h'; exact absurd h' (by decide)
          | succ k' => exact ⟨k', by omega, h⟩

theorem shortest_spec (M : List (List Int)) (hM : M ≠ []) :
    shortest M ∈ M ∧ ∀ w ∈ M, norm2 (shortest M) ≤ norm2 w := by
  cases M with
  | nil => exact absurd rfl hM
  | cons v0 ws =>
    show ws.foldl (fun v w => if norm2 w < norm2 v then w else v) v0 ∈ v0 :: ws ∧ ∀ w ∈ v0 :: ws,
      norm2 (ws.foldl (fun v w => if norm2 w < norm2 v then w else v) v0) ≤ norm2 w
    clear hM
    induction ws generalizing v0 with
    | nil => simp
    | cons a ws ih =>
      rw [List.foldl_cons]
      obtain ⟨h1, h2⟩ := ih (if norm2 a < norm2 v0 then a else v0)
      constructor
      · rcases List.mem_cons.1 h1 with h | h
        · rw [h]; split_ifs <;> simp
        · simp [h]
      · intro w hw
        have hh := h2 _ (List.mem_cons_self ..)
        have hle : norm2 (if norm2 a < norm2 v0 then a else v0) ≤ norm2 v0 ∧ norm2 (if norm2 a < norm2 v0 then a else v0) ≤ norm2 a := by
          split_ifs <;> constructor <;> omega
        simp only [List.mem_cons] at hw
        rcases hw with rfl | rfl | hw
        · exact hh.trans hle.1
        · exact hh.trans hle.2
        · exact h2 w (by simp [hw])

theorem readSecret_attackVector (S : List Nat) (e1 e2 a1 a2 : R n) (z : Int) (hz : 0 ≤ z) :
    readSecret S.length (attackVector S e1 e2 z a1 a2) = (a1, a2) := by
  have h := attackVector_z S e1 e2 z a1 a2
  rw [colIx_z] at h
  unfold readSecret
  simp only [h, if_neg (not_lt.2 hz)]
  refine Prod.ext ?_ ?_ <;> funext i
  · have := attackVector_a1 S e1 e2 z a1 a2 i
    rwa [colIx_a1] at this
  · have := attackVector_a2 S e1 e2 z a1 a2 i
    rwa [colIx_a2] at this

theorem readSecret_neg (S : List Nat) (e1 e2 a1 a2 : R n) (z : Int) (hz : 0 < z) :
    readSecret S.length ((attackVector S e1 e2 z a1 a2).map fun x => -x) = (a1, a2) := by
  have h := attackVector_z S e1 e2 z a1 a2
  rw [colIx_z] at h
  have hneg : ∀ (l : List Int) (j : Nat), (l.map fun x => -x).getD j 0 = - l.getD j 0 := by
    intro l j
    rw [List.getD_eq_getElem?_getD, List.getD_eq_getElem?_getD, List.getElem?_map]
    cases l[j]? <;> simp
  unfold readSecret
  simp only [hneg, h, if_pos (neg_lt_zero.2 hz), neg_neg]
  refine Prod.ext ?_ ?_ <;> funext i
  · have := attackVector_a1 S e1 e2 z a1 a2 i
    rwa [colIx_a1] at this
  · have := attackVector_a2 S e1 e2 z a1 a2 i
    rwa [colIx_a2] at this


/-! ## The same in the words of the specification -/

theorem norm2_eq (v : List Int) : norm2 v = Spec.sqLength v := by
  unfold norm2 Spec.sqLength
  congr 1
  exact List.map_congr_left fun x _ => by ring

theorem shortest_first (M : List (List Int)) (hM : M ≠ []) : Spec.FirstShortest M (shortest M) := by
  cases M with
  | nil => exact absurd rfl hM
  | cons v0 ws =>
    show Spec.FirstShortest (v0 :: ws) (ws.foldl (fun v w => if norm2 w < norm2 v then w else v) v0)
    clear hM
    induction ws generalizing v0 with
    | nil => exact ⟨0, rfl, by simp, by simp⟩
    | cons a ws ih =>
      rw [List.foldl_cons]
      split_ifs with h
      · obtain ⟨k, h1, h2, h3⟩ := ih a
        have h0 := h2 a (by simp)
        rw [norm2_eq, norm2_eq] at h
        refine ⟨k + 1, by simpa using h1, ?_, ?_⟩
        · intro w hw
          rcases List.mem_cons.1 hw with rfl | hw
          · omega
          · exact h2 w hw
        · intro k' hk' w hw
          cases k' with
          | zero => simp at hw; subst hw; omega
          | succ k' => exact h3 k' (by omega) w (by simpa using hw)
      · obtain ⟨k, h1, h2, h3⟩ := ih v0
        rw [norm2_eq, norm2_eq] at h
        have h0 := h2 v0 (by simp)
        cases k with
        | zero =>
          simp only [List.getElem?_cons_zero, Option.some.injEq] at h1
          rw [← h1] at h2 ⊢
          refine ⟨0, rfl, ?_, by simp⟩
          intro w hw
          simp only [List.mem_cons] at hw
          rcases hw with rfl | rfl | hw
          · omega
          · omega
          · exact h2 w (by simp [hw])
        | succ k =>
          have h4 := h3 0 (by omega) v0 rfl
          refine ⟨k + 2, by simpa using h1, ?_, ?_⟩
          · intro w hw
            simp only [List.mem_cons] at hw
            rcases hw with rfl | rfl | hw
            · omega
            · omega
            · exact h2 w (by simp [hw])
          · intro k' hk' w hw
            cases k' with
            | zero => simp at hw; subst hw; omega
            | succ k' =>
              cases k' with
              | zero => simp at hw; subst hw; omega
              | succ k' => exact h3 (k' + 1) (by omega) w (by simpa using hw)

theorem firstShortest_unique (M : List (List Int)) (v w : List Int) (hv : Spec.FirstShortest M v) (hw : Spec.FirstShortest M w) : v = w := by
  obtain ⟨k, a1, a2, a3⟩ := hv
  obtain ⟨l, b1, b2, b3⟩ := hw
  have hv : v ∈ M := List.mem_of_getElem? a1
  have hw : w ∈ M := List.mem_of_getElem? b1
  rcases Nat.lt_trichotomy k l with h | rfl | h
  · have := b3 k h v a1; have := a2 w hw; omega
  · rw [a1] at b1; exact Option.some.inj b1
  · have := a3 l h w b1; have := b2 v hv; omega

theorem readSecret_carries (m : Nat) (v : List Int) (a1 a2 : R n) : readSecret m v = (a1, a2) ↔ Spec.Carries m v a1 a2 := by
  have hneg : ∀ (l : List Int) (j : Nat), (l.map fun x => -x).getD j 0 = - l.getD j 0 := by
    intro l j
    rw [List.getD_eq_getElem?_getD, List.getD_eq_getElem?_getD, List.getElem?_map]
    cases l[j]? <;> simp
  unfold readSecret Spec.Carries
  rw [Prod.mk.injEq, funext_iff, funext_iff, ← forall_and]
  refine forall_congr' fun i => ?_
  split_ifs <;> simp only [hneg, neg_one_mul, one_mul]

theorem hit_iff (X : Instance n) (m : Nat) (M : List (List Int)) (hM : M ≠ []) :
    hit X m M = true ↔ ∃ v, Spec.FirstShortest M v ∧ Spec.Carries m v X.a1 X.a2 := by
  unfold hit
  rw [decide_eq_true_iff, readSecret_carries]
  constructor
  · intro h; exact ⟨_, shortest_first M hM, h⟩
  · rintro ⟨v, h1, h2⟩
    rw [firstShortest_unique M _ _ (shortest_first M hM) h1]; exact h2

theorem reducedBy_range2 (red : Nat → List (List Int) → List (List Int)) (M : List (List Int)) (k : Nat) (hk : k < 10) :
    reducedBy red M ((range2 2 21).take (k + 1)) = (List.range (k + 1)).foldl (fun M i => red (2 + 2 * i) M) M := by
  unfold reducedBy range2
  rw [← List.map_take, List.take_range, List.foldl_map]
  congr 2
  omega

theorem reducedBy_ne_nil (red : Nat → List (List Int) → List (List Int)) (hred : ∀ b M, M ≠ [] → red b M ≠ []) (bs : List Nat) :
    ∀ M, M ≠ [] → reducedBy red M bs ≠ [] := by
  induction bs with
  | nil => intro M h; exact h
  | cons b bs ih => intro M h; exact ih _ (hred _ _ h)

theorem mem_betas (red : Nat → List (List Int) → List (List Int)) (hred : ∀ b M, M ≠ [] → red b M ≠ []) (X : Instance n) (rounding : Bool)
    (m : Nat) (M : List (List Int)) (hM : M ≠ []) (b : Nat) (hb : b ∈ range2 2 21) :
    (∃ row ∈ betas red X rounding m M false (range2 2 21), row.key = (m, m + 1 + 2 * n, b, rounding) ∧ row.success = true) ↔
      Spec.FoundWith red m X.a1 X.a2 M b := by
  have hkey := betas_key red X rounding m (range2 2 21) M false
  have hlen : (range2 2 21).length = 10 := by simp [range2]
  have hget : ∀ k (h : k < (range2 2 21).length), (range2 2 21)[k] = 2 + 2 * k := by intro k h; simp [range2]
  have hkeyk : ∀ k (h : k < (betas red X rounding m M false (range2 2 21)).length),
      ((betas red X rounding m M false (range2 2 21))[k]).key = (m, m + 1 + 2 * n, 2 + 2 * k, rounding) := by
    intro k h
    have h' : k < (range2 2 21).length := by rwa [betas_length] at h
    have := congrArg (fun l => l[k]?) hkey
    simp only [List.getElem?_map, List.getElem?_eq_getElem h, List.getElem?_eq_getElem h', Option.map_some, Option.some.injEq] at this
    rw [this, hget]
  constructor
  · rintro ⟨row, hrow, hk, hs⟩
    obtain ⟨k, hlt, rfl⟩ := List.getElem_of_mem hrow
    have hlt' : k < (range2 2 21).length := by rwa [betas_length] at hlt
    rw [hkeyk] at hk
    simp only [Prod.mk.injEq, true_and, and_true] at hk
    obtain ⟨k', hk', h⟩ := (betas_success red X rounding m _ M k hlt').1 hs
    rw [hit_iff _ _ _ (reducedBy_ne_nil red hred _ _ hM), reducedBy_range2 _ _ _ (by omega)] at h
    exact ⟨k' + 1, by omega, by omega, h⟩
  · rintro ⟨b', h0, hb', h⟩
    obtain ⟨hb1, hb2, hb3⟩ := range2_mem _ _ _ hb
    have hlt' : (b - 2) / 2 < (range2 2 21).length := by omega
    have hlt : (b - 2) / 2 < (betas red X rounding m M false (range2 2 21)).length := by rwa [betas_length]
    refine ⟨_, List.getElem_mem hlt, ?_, ?_⟩
    · rw [hkeyk]; simp only [Prod.mk.injEq, true_and, and_true]; omega
    · rw [betas_success red X rounding m _ M _ hlt']
      refine ⟨b' - 1, by omega, ?_⟩
      rw [hit_iff _ _ _ (reducedBy_ne_nil red hred _ _ hM), reducedBy_range2 _ _ _ (by omega)]
      rwa [Nat.sub_add_cancel h0]

theorem mem_runRows (red : Nat → List (List Int) → List (List Int)) {q : Nat} (D : Draws n q) (rounding r : Bool) (draw : Nat → Nat → Nat)
    (m b : Nat) (hm : m ∈ range2 n (2 * n + 1)) (s : Bool) :
    (∃ row ∈ runRows red D rounding draw, row.key = (m, m + 1 + 2 * n, b, r) ∧ row.success = s) ↔
      ∃ row ∈ betas red (inputVal D rounding) rounding m (coutbasis q (inputVal D rounding) (randomsubset (2 * n) m (draw m))) false (range2 2 21),
        row.key = (m, m + 1 + 2 * n, b, r) ∧ row.success = s := by
  unfold runRows
  constructor
  · rintro ⟨row, hrow, hk, hs⟩
    simp only [List.mem_flatten, List.mem_map] at hrow
    obtain ⟨_, ⟨m', hm', rfl⟩, hrow⟩ := hrow
    have h1 := List.mem_map_of_mem (f := Row.key) hrow
    rw [betas_key, List.mem_map] at h1
    obtain ⟨b', _, h1⟩ := h1
    have hmm : m' = m := by rw [hk] at h1; exact (Prod.mk.inj h1).1
    subst hmm
    exact ⟨row, hrow, hk, hs⟩
  · rintro ⟨row, hrow, hk, hs⟩
    exact ⟨row, List.mem_flatten.2 ⟨_, List.mem_map.2 ⟨m, hm, rfl⟩, hrow⟩, hk, hs⟩

theorem runRows_rounding (red : Nat → List (List Int) → List (List Int)) {q : Nat} (D : Draws n q) (rounding : Bool) (draw : Nat → Nat → Nat)
    (row : Row) (h : row ∈ runRows red D rounding draw) : row.rounding = rounding := by
  have h1 := List.mem_map_of_mem (f := Row.key) h
  rw [runRows_key, mem_runKeys] at h1
  exact h1.2.2.2

theorem successOf_iff (red : Nat → List (List Int) → List (List Int)) (hred : ∀ b M, M ≠ [] → red b M ≠ []) {q : Nat} (D : Draws n q)
    (draw : Bool → Nat → Nat → Nat) (m b : Nat) (r : Bool) (hm : m ∈ range2 n (2 * n + 1)) (hb : b ∈ range2 2 21) :
    successOf red D draw (m, m + 1 + 2 * n, b, r) = true ↔
      Spec.FoundWith red m (inputVal D r).a1 (inputVal D r).a2 (coutbasis q (inputVal D r) (randomsubset (2 * n) m (draw r m))) b := by
  unfold successOf
  rw [decide_eq_true_iff, ← mem_betas red hred (inputVal D r) r m _ (by simp [coutbasis, cinbasis]) b hb, ← mem_runRows red D r r (draw r) m b hm]
  unfold inputRows
  constructor
  · rintro ⟨row, hrow, hk, hs⟩
    rcases List.mem_append.1 hrow with h | h
    · have h1 := runRows_rounding _ _ _ _ _ h
      have h2 : row.rounding = r := congrArg (fun x => x.2.2.2) hk
      rw [h1] at h2; subst h2
      exact ⟨row, h, hk, hs⟩
    · have h1 := runRows_rounding _ _ _ _ _ h
      have h2 : row.rounding = r := congrArg (fun x => x.2.2.2) hk
      rw [h1] at h2; subst h2
      exact ⟨row, h, hk, hs⟩
  · rintro ⟨row, hrow, hk, hs⟩
    refine ⟨row, ?_, hk, hs⟩
    cases r
    · exact List.mem_append_left _ hrow
    · exact List.mem_append_right _ hrow

theorem randomsubset_onto (N : Nat) (S : Finset Nat) (hS : ∀ j ∈ S, j < N) :
    ∃ draw : Nat → Nat, ∀ j, j ∈ randomsubset N S.card draw ↔ j ∈ S := by
  classical
  set T := (List.range N).filter (fun j => decide (j ∈ S)) with hT
  set U := (List.range N).filter (fun j => !decide (j ∈ S)) with hU
  have hTl : T.length = S.card := by
    have h1 : T.Nodup := List.nodup_range.filter _
    rw [← List.toFinset_card_of_nodup h1]
    congr 1
    ext j
    simp only [hT, List.mem_toFinset, List.mem_filter, List.mem_range, decide_eq_true_eq]
    exact ⟨fun h => h.2, fun h => ⟨hS j h, h⟩⟩
  have hp : (T ++ U).Perm (List.range N) := List.filter_append_perm _ _
  have hUl : U.length = N - S.card := by
    have := hp.length_eq
    rw [List.length_append, List.length_range, hTl] at this
    omega
  refine ⟨fun j => (T ++ U).getD j 0, fun j => ?_⟩
  have e1 : (List.range S.card).map (fun j => 2 * (T ++ U).getD j 0 + 1) = T.map (fun t => 2 * t + 1) := by
    apply List.ext_getElem (by simp [hTl])
    intro i h1 h2
    rw [List.length_map] at h2
    simp only [List.getElem_map, List.getElem_range]
    rw [List.getD_append _ _ _ _ h2, List.getD_eq_getElem _ _ h2]
  have e2 : (List.range (N - S.card)).map (fun j => 2 * (T ++ U).getD (S.card + j) 0) = U.map (fun t => 2 * t) := by
    apply List.ext_getElem (by simp [hUl])
    intro i h1 h2
    rw [List.length_map] at h2
    simp only [List.getElem_map, List.getElem_range]
    rw [List.getD_append_right _ _ _ _ (by omega), show S.card + i - T.length = i by omega, List.getD_eq_getElem _ _ h2]
  let f : Nat → Nat := fun i => 2 * i + if i ∈ S then 1 else 0
  have e3 : ((T.map (fun t => 2 * t + 1) ++ U.map (fun t => 2 * t))).mergeSort (fun a b => decide (a ≤ b)) = (List.range N).map f := by
    have hf1 : T.map (fun t => 2 * t + 1) = T.map f := by
      apply List.map_congr_left
      intro t ht
      have : t ∈ S := by simpa using (List.mem_filter.1 ht).2
      simp [f, this]
    have hf2 : U.map (fun t => 2 * t) = U.map f := by
      apply List.map_congr_left
      intro t ht
      have : t ∉ S := by simpa using (List.mem_filter.1 ht).2
      simp [f, this]
    rw [hf1, hf2, ← List.map_append]
    refine List.Perm.eq_of_pairwise' (r := (· ≤ ·)) ?_ ?_ ((List.mergeSort_perm _ _).trans (hp.map f))
    · have := List.pairwise_mergeSort (le := fun a b : Nat => decide (a ≤ b)) (by simp; omega) (by simp; omega) ((T ++ U).map f)
      simpa using this
    · rw [List.pairwise_map]
      refine List.pairwise_lt_range.imp ?_
      intro a b h
      simp only [f]
      split <;> split <;> omega
  unfold randomsubset
  dsimp only
  rw [e1, e2, e3, List.mem_filter, List.mem_range]
  constructor
  · rintro ⟨h1, h2⟩
    rw [decide_eq_true_eq, List.getD_eq_getElem _ _ (by simpa using h1)] at h2
    simp only [List.getElem_map, List.getElem_range, f] at h2
    by_contra h
    rw [if_neg h] at h2
    omega
  · intro h
    refine ⟨hS j h, ?_⟩
    rw [decide_eq_true_eq, List.getD_eq_getElem _ _ (by simpa using hS j h)]
    simp only [List.getElem_map, List.getElem_range, f, if_pos h]
    omega

end Saber.Sanity
