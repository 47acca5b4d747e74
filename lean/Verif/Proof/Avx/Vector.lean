import Verif.Proof.Avx.Ring
import Verif.Model.Avx.Indcpa
import Verif.Proof.Poly
import Verif.Proof.Indcpa
/-!
# Matrix-vector and vector-vector products with AVX2
-/
namespace Saber.Avx
open Spec

/-! ### Sums of products -/

/-- Sum of the first `n` products. -/
def accV (a b : Nat → List Vec) (n : Nat) (m t : Nat) : Int := ∑ j ∈ Finset.range n, blk (a j) (b j) m t

theorem interV_accV (a b : Nat → List Vec) (n k t : Nat) :
    interV (accV a b n) k t = ∑ j ∈ Finset.range n, interV (blk (a j) (b j)) k t := by
  unfold interV accV
  split <;> rfl

/-- The loop that multiplies and accumulates. -/
theorem accLoop_ok {n : Nat} {a b b' : Nat → List Vec} (ha : ∀ j < n, (a j).length = 16) (hb : ∀ j < n, EvalOf (b j) (b' j)) {c : List Vec}
    (hc : c.length = 128) {body : Nat → List Vec → CM (List Vec)}
    (hbody : ∀ j c, j < n → body j c = toom_cook_4way_avx_n1 (a j) (b' j) c j) :
    Ok (loop n c body) fun c' => c'.length = 128 ∧ (n ≠ 0 → Products (accV a b n) c') := by
  refine loop_inv (fun i (c : List Vec) => c.length = 128 ∧ (i ≠ 0 → Products (accV a b i) c)) ⟨hc, fun h => absurd rfl h⟩ ?_
  rintro j c hj ⟨hl, hp⟩
  rw [hbody j c hj]
  obtain ⟨c', h1, h2⟩ := toom_cook_4way_avx_n1_spec (ha j hj) (hb j hj) hl j hp
  refine ⟨c', h1, h2.1, fun _ => ?_⟩
  have e : accV a b (j + 1) = fun m n => blk (a j) (b j) m n + if j = 0 ∨ m = 31 then 0 else accV a b j m n := by
    funext m t
    unfold accV
    rw [Finset.sum_range_succ, add_comm]
    congr 1
    by_cases h0 : j = 0
    · rw [if_pos (Or.inl h0), h0]; rfl
    · by_cases hm : m = 31
      · rw [if_pos (Or.inr hm), hm]
        exact Finset.sum_eq_zero fun i _ => blk31 _ _ _
      · rw [if_neg (by tauto)]
  rw [e]
  exact h2

/-- Interpolation of a sum of products. -/
theorem interpol_ok {n : Nat} {a b : Nat → List Vec} {c res : List Vec} (hc : Products (accV a b n) c) (hr : res.length = 16) :
    ∃ c' r, TC_interpol c res = .ok (c', r) ∧ c'.length = 128 ∧ r.length = 16 ∧
      EqMod 8192 (vecP r) fun i => ∑ j ∈ Finset.range n, negMul (vecP (a j)) (vecP (b j)) i := by
  obtain ⟨c', r, h1, h2, h3, h4⟩ := interp_sound hc hr
  refine ⟨c', r, h1, h2, h3, fun i => ?_⟩
  have hi := i.isLt
  have h := h4 (i.val / 16) (i.val % 16) (by omega) (by omega)
  have e : ∑ n_1 ∈ Finset.range 512, (resC (i.val / 16) n_1 : Int) * interV (accV a b n) (i.val % 16) n_1 ≡
      ∑ m ∈ Finset.range 512, sgn (i.val / 16) (m / 16 % 16 + m % 16 + m / 256) * interV (accV a b n) (i.val % 16) m [ZMOD 8192] :=
    modEq_sum fun m _ => Int.ModEq.mul_right _ (resC_sgn _ _)
  have e2 : ∑ m ∈ Finset.range 512, sgn (i.val / 16) (m / 16 % 16 + m % 16 + m / 256) * interV (accV a b n) (i.val % 16) m =
      ∑ j ∈ Finset.range n, negMul (vecP (a j)) (vecP (b j)) i := by
    simp only [interV_accV, Finset.mul_sum]
    rw [Finset.sum_comm]
    refine Finset.sum_congr rfl fun j _ => ?_
    rw [blocks_negMul (a j) (b j) (show i.val / 16 < 16 by omega) (show i.val % 16 < 16 by omega)]
    exact congrArg _ (Fin.ext (by dsimp only; omega))
  show vecP r i % 8192 = (∑ j ∈ Finset.range n, negMul (vecP (a j)) (vecP (b j)) i) % 8192
  rw [← e2]
  exact h.trans e

/-! ### Loads and stores -/

/-- The vectors that hold the coefficients of a polynomial. -/
def vecsOf (row : List (BitVec 16)) : List Vec := (List.range 16).map fun j => fun l => row.getD (j * 16 + l.val) 0

/-- The coefficients held in 16 vectors. -/
def rowOf (v : List Vec) : List (BitVec 16) := (List.range 256).map fun k => el v (k / 16) (k % 16)

@[simp] theorem length_vecsOf (row : List (BitVec 16)) : (vecsOf row).length = 16 := by simp [vecsOf]
@[simp] theorem length_rowOf (v : List Vec) : (rowOf v).length = 256 := by simp [rowOf]

theorem el_vecsOf (row : List (BitVec 16)) {w k : Nat} (hw : w < 16) (hk : k < 16) : el (vecsOf row) w k = row.getD (w * 16 + k) 0 := by
  unfold el vecsOf
  rw [getD_map_range _ _ _ _ hw]
  unfold Vec.lane
  simp only
  rw [Nat.mod_eq_of_lt hk]

theorem vecP_vecsOf (row : List (BitVec 16)) : vecP (vecsOf row) = toP row := by
  funext i
  have hi := i.isLt
  unfold vecP toP
  rw [el_vecsOf _ (by omega) (by omega), show i.val / 16 * 16 + i.val % 16 = i.val by omega]

theorem toP_rowOf (v : List Vec) : toP (rowOf v) = vecP v := by
  funext i
  unfold vecP toP rowOf
  rw [getD_map_range _ _ _ _ i.isLt]

theorem loadu_ok {row : List (BitVec 16)} {off : Nat} (h : off + 16 ≤ row.length) : loadu row off = .ok fun l => row.getD (off + l.val) 0 :=
  if_pos h

theorem loadRow_ok {dst : List Vec} {row : List (BitVec 16)} (hd : dst.length = 16) (hr : row.length = 256) :
    loadRow dst row = .ok (vecsOf row) := by
  unfold loadRow
  rw [show N / 16 = 16 from rfl, loop_rows 16 dst hd (fun _ => 0) (fun j => fun l => row.getD (j * 16 + l.val) 0)]
  · rfl
  · intro i a hi ha _
    rw [loadu_ok (by omega), ok_bind, wr_ok (by omega)]

/-- An array of type `__m256i[L][n]`. -/
def IsVV (L n : Nat) (v : List (List Vec)) : Prop := v.length = L ∧ ∀ i < L, (v.getD i []).length = n

theorem isVV_uninitVV (tag L n : Nat) : IsVV L n (uninitVV tag L n) := by
  refine ⟨by simp [uninitVV], fun i hi => ?_⟩
  unfold uninitVV
  rw [getD_map_range _ _ _ _ hi, length_uninitVecs]

theorem loadVec_ok (P : PSet) {dst : List (List Vec)} {src : List (List (BitVec 16))} (hd : IsVV P.L 16 dst) (hs : IsVec P.L src) :
    loadVec P dst src = .ok ((List.range P.L).map fun i => vecsOf (src.getD i [])) := by
  unfold loadVec
  rw [loop_rows P.L dst hd.1 []]
  intro i a hi ha he
  rw [rd_ok [] (by rw [hs.1]; exact hi), ok_bind, rd_ok [] (by omega), ok_bind, loadRow_ok (by rw [he]; exact hd.2 i hi) (hs.2 i hi), ok_bind,
    wr_ok (by omega)]

theorem loadMat_ok (P : PSet) {dst : List (List (List Vec))} {src : List (List (List (BitVec 16)))} (hd : dst.length = P.L)
    (hd' : ∀ i < P.L, IsVV P.L 16 (dst.getD i [])) (hs : IsMat P.L src) :
    loadMat P dst src = .ok ((List.range P.L).map fun i => (List.range P.L).map fun j => vecsOf ((src.getD i []).getD j [])) := by
  unfold loadMat
  rw [loop_rows P.L dst hd []]
  intro i a hi ha he
  rw [rd_ok [] (by rw [hs.1]; exact hi), ok_bind, rd_ok [] (by omega), ok_bind, loadVec_ok P (by rw [he]; exact hd' i hi) (hs.2 i hi), ok_bind,
    wr_ok (by omega)]

theorem mask_load_msb {i : Nat} (h : i < 8) : (mask_load i).msb = true := by
  interval_cases i <;> decide

theorem maskstore_ok {row : List (BitVec 16)} {off : Nat} {v : Vec} (h : off + 16 ≤ row.length) :
    maskstore row off mask_load v = .ok (writeAt row off ((List.range 16).map v.lane)) := by
  unfold maskstore
  rw [loop_blocks 2 (fun i => [v.lane (2 * i), v.lane (2 * i + 1)]) (fun _ => rfl) 8 row off (by omega)]
  · rfl
  · intro j a hj ha
    rw [if_pos (mask_load_msb hj)]
    simp only [wrs]
    rw [wr_ok (by omega), ok_bind, ok_bind, wr_ok (by rw [List.length_set]; omega), ok_bind]

theorem storeRow_ok {row : List (BitVec 16)} {v : List Vec} (hr : row.length = 256) (hv : v.length = 16) : storeRow row v = .ok (rowOf v) := by
  unfold storeRow
  rw [show N / 16 = 16 from rfl, loop_blocks 16 (fun j => (List.range 16).map (v.getD j fun _ => 0).lane) (fun _ => by simp) 16 row 0 (by omega)]
  · have e : (List.range 16).flatMap (fun j => (List.range 16).map (v.getD j fun _ => 0).lane) = rowOf v := by
      apply ext_getD 0
      · rw [length_flatMap_range 16 _ (fun _ => by simp), length_rowOf]
      · intro m hm
        rw [length_flatMap_range 16 _ (fun _ => by simp)] at hm
        rw [getD_flatMap_range 16 (by omega) _ (fun _ => by simp) 0 16 m hm, getD_map_range _ _ _ _ (Nat.mod_lt _ (by omega)), rowOf,
          getD_map_range _ _ _ _ (by omega)]
        rfl
    rw [e, writeAt_full _ _ (by simp [hr])]
  · intro j a hj ha
    rw [rd_ok (fun _ => 0) (by omega), ok_bind, maskstore_ok (by omega), wrs_ok _ _ _ (by simp; omega), Nat.zero_add, Nat.mul_comm]

theorem storeVec_ok (P : PSet) {dst : List (List (BitVec 16))} {v : List (List Vec)} (hd : IsVec P.L dst) (hv : IsVV P.L 16 v) :
    storeVec P dst v = .ok ((List.range P.L).map fun i => rowOf (v.getD i [])) := by
  unfold storeVec
  rw [loop_rows P.L dst hd.1 []]
  intro i a hi ha he
  rw [rd_ok [] (by rw [hv.1]; exact hi), ok_bind, rd_ok [] (by omega), ok_bind, storeRow_ok (by rw [he]; exact hd.2 i hi) (hv.2 i hi), ok_bind,
    wr_ok (by omega)]

/-! ### Products of vectors -/

theorem evalAll_ok (P : PSet) {s bb : List (List Vec)} (hs : IsVV P.L 16 s) (hb : IsVV P.L 64 bb) :
    Ok (evalAll P s bb) fun b' => b'.length = P.L ∧ ∀ j < P.L, EvalOf (s.getD j []) (b'.getD j []) := by
  unfold evalAll
  refine (loop_inv (fun n (b : List (List Vec)) => IsVV P.L 64 b ∧ ∀ j < n, EvalOf (s.getD j []) (b.getD j [])) ⟨hb, fun j hj => absurd hj (by omega)⟩
    ?_).mono fun b h => ⟨h.1.1, h.2⟩
  rintro i b hi ⟨hl, h⟩
  rw [rd_ok [] (by rw [hs.1]; exact hi), ok_bind, rd_ok [] (by rw [hl.1]; exact hi), ok_bind]
  obtain ⟨r, h1, h2⟩ := TC_eval_spec (hs.2 i hi) (hl.2 i hi)
  rw [h1, ok_bind, wr_ok (by rw [hl.1]; exact hi)]
  refine Ok.pure ⟨⟨by rw [List.length_set, hl.1], fun j hj => ?_⟩, fun j hj => ?_⟩
  · rw [getD_set]
    split
    · exact h2.1
    · exact hl.2 j hj
  · rw [getD_set]
    split
    · rename_i h'
      rw [← h'.1]; exact h2
    · rename_i h'
      exact h j (by rw [hl.1] at h'; omega)

theorem vector_vector_mul_ok (P : PSet) {a s b' : List (List Vec)} {res : List Vec} (ha : IsVV P.L 16 a) (hb : b'.length = P.L)
    (hs : ∀ j < P.L, EvalOf (s.getD j []) (b'.getD j [])) (hr : res.length = 16) :
    Ok (vector_vector_mul P a b' res) fun r => r.length = 16 ∧
      EqMod 8192 (vecP r) fun i => ∑ j ∈ Finset.range P.L, negMul (vecP (a.getD j [])) (vecP (s.getD j [])) i := by
  unfold vector_vector_mul
  obtain ⟨c, h1, h2, h3⟩ := accLoop_ok (n := P.L) (a := fun j => a.getD j []) (b := fun j => s.getD j []) (b' := fun j => b'.getD j [])
    ha.2 hs (length_uninitVecs 134 128) (body := fun i c_bucket => do
      let a ← rd a i
      let b ← rd b' i
      toom_cook_4way_avx_n1 a b c_bucket i) fun j c hj => by
    rw [rd_ok [] (by rw [ha.1]; exact hj), ok_bind, rd_ok [] (by rw [hb]; exact hj), ok_bind]
  rw [h1, ok_bind]
  obtain ⟨c', r, h4, h5, h6, h7⟩ := interpol_ok (h3 (by cases P <;> decide)) hr
  rw [h4]
  exact ⟨r, rfl, h6, h7⟩

theorem matrix_vector_mul_ok (P : PSet) {a : List (List (List Vec))} {s b' res : List (List Vec)} (t : Int) (ha : a.length = P.L)
    (ha' : ∀ i < P.L, IsVV P.L 16 (a.getD i [])) (hb : b'.length = P.L) (hs : ∀ j < P.L, EvalOf (s.getD j []) (b'.getD j []))
    (hr : IsVV P.L 16 res) :
    Ok (matrix_vector_mul P a b' res t) fun r => IsVV P.L 16 r ∧ ∀ i < P.L, EqMod 8192 (vecP (r.getD i [])) fun k =>
      ∑ j ∈ Finset.range P.L, negMul (vecP (if t = 0 then (a.getD i []).getD j [] else (a.getD j []).getD i [])) (vecP (s.getD j [])) k := by
  unfold matrix_vector_mul
  refine Ok.bind (P := fun x => IsVV P.L 16 x.2 ∧ ∀ i < P.L, EqMod 8192 (vecP (x.2.getD i [])) fun k =>
      ∑ j ∈ Finset.range P.L, negMul (vecP (if t = 0 then (a.getD i []).getD j [] else (a.getD j []).getD i [])) (vecP (s.getD j [])) k)
    ((loop_inv (fun n (x : List Vec × List (List Vec)) => x.1.length = 128 ∧ IsVV P.L 16 x.2 ∧ ∀ i < n, EqMod 8192 (vecP (x.2.getD i [])) fun k =>
      ∑ j ∈ Finset.range P.L, negMul (vecP (if t = 0 then (a.getD i []).getD j [] else (a.getD j []).getD i [])) (vecP (s.getD j [])) k)
      ⟨length_uninitVecs 133 128, hr, fun i hi => absurd hi (by omega)⟩ ?_).mono fun x h => h.2) ?_
  · rintro i ⟨c, r⟩ hi ⟨hc, hv, h⟩
    dsimp only
    obtain ⟨c1, h1, h2, h3⟩ := accLoop_ok (n := P.L) (a := fun j => if t = 0 then (a.getD i []).getD j [] else (a.getD j []).getD i [])
      (b := fun j => s.getD j []) (b' := fun j => b'.getD j [])
      (fun j hj => by split
                      · exact (ha' i hi).2 j hj
                      · exact (ha' j hj).2 i hi) hs hc (body := fun j c_bucket => do
        let b ← rd b' j
        if t = 0 then
          let ai ← rd a i
          let aij ← rd ai j
          toom_cook_4way_avx_n1 aij b c_bucket j
        else
          let aj ← rd a j
          let aji ← rd aj i
          toom_cook_4way_avx_n1 aji b c_bucket j) fun j c hj => by
      rw [rd_ok [] (by rw [hb]; exact hj), ok_bind]
      by_cases ht : t = 0
      · simp only [ht, if_true]
        rw [rd_ok [] (by rw [ha]; exact hi), ok_bind, rd_ok [] (by rw [(ha' i hi).1]; exact hj), ok_bind]
      · simp only [ht, if_false]
        rw [rd_ok [] (by rw [ha]; exact hj), ok_bind, rd_ok [] (by rw [(ha' j hj).1]; exact hi), ok_bind]
    rw [h1, ok_bind, rd_ok [] (by rw [hv.1]; exact hi), ok_bind]
    obtain ⟨c', ri, h4, h5, h6, h7⟩ := interpol_ok (h3 (by cases P <;> decide)) (hv.2 i hi)
    rw [h4, ok_bind]
    dsimp only
    rw [wr_ok (by rw [hv.1]; exact hi), ok_bind]
    refine Ok.pure ⟨h5, ⟨by rw [List.length_set, hv.1], fun j hj => ?_⟩, fun j hj => ?_⟩
    · dsimp only
      rw [getD_set]
      split
      · exact h6
      · exact hv.2 j hj
    · dsimp only
      rw [getD_set]
      by_cases hij : i = j
      · subst hij
        rw [if_pos ⟨rfl, by rw [hv.1]; exact hi⟩]
        exact h7
      · rw [if_neg (by tauto)]
        exact h j (by omega)
  · rintro ⟨c, r⟩ h
    exact Ok.pure h

end Saber.Avx
