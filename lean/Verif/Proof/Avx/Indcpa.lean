import Verif.Proof.Avx.Pack
/-!
# Proofs about `SABER_indcpa.c` of the AVX2 implementation
-/
namespace Saber.Avx
open Spec

/-! ### Vectors of polynomials -/

/-- The vectors that hold a vector of polynomials. -/
def vecsV (P : PSet) (src : List (List (BitVec 16))) : List (List Vec) := (List.range P.L).map fun i => vecsOf (src.getD i [])

/-- The vectors that hold a matrix of polynomials. -/
def vecsM (P : PSet) (src : List (List (List (BitVec 16)))) : List (List (List Vec)) := (List.range P.L).map fun i => vecsV P (src.getD i [])

theorem getD_vecsV (P : PSet) (src : List (List (BitVec 16))) {i : Nat} (hi : i < P.L) : (vecsV P src).getD i [] = vecsOf (src.getD i []) :=
  getD_map_range _ _ _ _ hi

theorem getD_vecsM (P : PSet) (src : List (List (List (BitVec 16)))) {i : Nat} (hi : i < P.L) : (vecsM P src).getD i [] = vecsV P (src.getD i []) :=
  getD_map_range _ _ _ _ hi

theorem isVV_vecsV (P : PSet) (src : List (List (BitVec 16))) : IsVV P.L 16 (vecsV P src) :=
  ⟨by simp [vecsV], fun i hi => by rw [getD_vecsV P src hi, length_vecsOf]⟩

theorem loadVec_eq (P : PSet) {dst : List (List Vec)} {src : List (List (BitVec 16))} (hd : IsVV P.L 16 dst) (hs : IsVec P.L src) :
    loadVec P dst src = .ok (vecsV P src) := loadVec_ok P hd hs

theorem loadMat_eq (P : PSet) {dst : List (List (List Vec))} {src : List (List (List (BitVec 16)))} (hd : dst.length = P.L)
    (hd' : ∀ i < P.L, IsVV P.L 16 (dst.getD i [])) (hs : IsMat P.L src) : loadMat P dst src = .ok (vecsM P src) := loadMat_ok P hd hd' hs

theorem matrix_ok (P : PSet) (t : Int) (A : PMat P.L) (s : PVec P.L) {b' res : List (List Vec)} (hb : b'.length = P.L)
    (hs : ∀ j < P.L, EvalOf ((vecsV P (ofV s)).getD j []) (b'.getD j [])) (hr : IsVV P.L 16 res) :
    Ok (matrix_vector_mul P (vecsM P (ofM A)) b' res t) fun r => IsVV P.L 16 r ∧
      ∀ i : Fin P.L, EqMod 8192 (vecP (r.getD i [])) (matVec (if t = 0 then A else transpose A) s i) := by
  refine (matrix_vector_mul_ok P t (a := vecsM P (ofM A)) (s := vecsV P (ofV s)) (by simp [vecsM])
    (fun i hi => by rw [getD_vecsM _ _ hi]; exact isVV_vecsV _ _) hb hs hr).mono ?_
  rintro r ⟨h1, h2⟩
  refine ⟨h1, fun i => EqMod.trans (h2 i i.isLt) ?_⟩
  have e : (fun k => ∑ j ∈ Finset.range P.L, negMul (vecP (if t = 0 then ((vecsM P (ofM A)).getD i []).getD j [] else
      ((vecsM P (ofM A)).getD j []).getD i [])) (vecP ((vecsV P (ofV s)).getD j [])) k) =
      matVec (if t = 0 then toM P.L (ofM A) else transpose (toM P.L (ofM A))) (toV P.L (ofV s)) i := by
    funext k
    unfold matVec
    rw [Finset.sum_range]
    refine Finset.sum_congr rfl fun j _ => ?_
    rw [getD_vecsM _ _ i.isLt, getD_vecsM _ _ j.isLt, getD_vecsV _ _ j.isLt, getD_vecsV _ _ i.isLt, getD_vecsV _ _ j.isLt, vecP_vecsOf]
    by_cases ht : t = 0
    · rw [if_pos ht, if_pos ht, vecP_vecsOf]; rfl
    · rw [if_neg ht, if_neg ht, vecP_vecsOf]; rfl
  rw [e]
  apply matVec_congr (m := 8192)
  · intro i j
    by_cases ht : t = 0
    · rw [if_pos ht, if_pos ht, toM_ofM]; exact toP_ofP_mod _ _ (by decide)
    · rw [if_neg ht, if_neg ht]; unfold transpose; rw [toM_ofM]; exact toP_ofP_mod _ _ (by decide)
  · intro j
    rw [toV_ofV]; exact toP_ofP_mod _ _ (by decide)

theorem inner_ok (P : PSet) (a s : PVec P.L) {b' : List (List Vec)} {res : List Vec} (hb : b'.length = P.L)
    (hs : ∀ j < P.L, EvalOf ((vecsV P (ofV s)).getD j []) (b'.getD j [])) (hr : res.length = 16) :
    Ok (vector_vector_mul P (vecsV P (ofV a)) b' res) fun r => r.length = 16 ∧ EqMod 8192 (vecP r) (innerProd a s) := by
  refine (vector_vector_mul_ok P (s := vecsV P (ofV s)) (isVV_vecsV _ _) hb hs hr).mono ?_
  rintro r ⟨h1, h2⟩
  refine ⟨h1, EqMod.trans h2 ?_⟩
  have e : (fun k => ∑ j ∈ Finset.range P.L, negMul (vecP ((vecsV P (ofV a)).getD j [])) (vecP ((vecsV P (ofV s)).getD j [])) k) =
      innerProd (toV P.L (ofV a)) (toV P.L (ofV s)) := by
    funext k
    unfold innerProd
    rw [Finset.sum_range]
    refine Finset.sum_congr rfl fun j _ => ?_
    rw [getD_vecsV _ _ j.isLt, getD_vecsV _ _ j.isLt, vecP_vecsOf, vecP_vecsOf]; rfl
  rw [e]
  apply innerProd_congr (m := 8192) <;> intro j <;> rw [toV_ofV] <;> exact toP_ofP_mod _ _ (by decide)

/-! ### Rounding -/

theorem el_map (G : Nat → Vec) {w k : Nat} (hw : w < 16) (hk : k < 16) : el ((List.range 16).map G) w k = G w ⟨k, hk⟩ := by
  unfold el
  rw [getD_map_range _ _ _ _ hw]
  exact lane_fin (G w) ⟨k, hk⟩

theorem vecP_map (G : Nat → Vec) (i : Fin 256) :
    vecP ((List.range 16).map G) i = ((G (i.val / 16) ⟨i.val % 16, Nat.mod_lt _ (by decide)⟩).toNat : Int) := by
  have hi := i.isLt
  unfold vecP
  rw [el_map G (by omega) (Nat.mod_lt _ (by decide))]

theorem getD_lane (v : List Vec) (i : Fin 256) :
    (((v.getD (i.val / 16) fun _ => 0) ⟨i.val % 16, Nat.mod_lt _ (by decide)⟩).toNat : Int) = vecP v i := by
  unfold vecP
  rw [el_fin]

theorem truncRow_ok {v : List Vec} (hv : v.length = 16) :
    Ok (loop (N / 16) v fun j v => do
      let x ← rd v j
      wr v j fun l => ((x l + H1_avx l) >>> (EQ - EP)) &&& mod l) fun r => r.length = 16 ∧ ∀ k, vecP r k = (vecP v k + 4) % 65536 / 8 := by
  rw [show N / 16 = 16 from rfl, loop_rows 16 v hv (fun _ => 0) (fun j => fun l => (((v.getD j fun _ => 0) l + H1_avx l) >>> (EQ - EP)) &&& mod l)]
  · refine Ok.pure ⟨by simp, fun k => ?_⟩
    rw [vecP_map, ← getD_lane v k]
    generalize (v.getD (k.val / 16) fun _ => 0) ⟨k.val % 16, Nat.mod_lt _ (by decide)⟩ = x
    have := x.isLt
    show (((((x + 4#16) >>> 3) &&& 8191).toNat : Nat) : Int) = _
    rw [and8191, BitVec.toNat_ushiftRight, BitVec.toNat_add, Nat.shiftRight_eq_div_pow]
    show (((x.toNat + 4) % 65536 / 8 % 8192 : Nat) : Int) = _
    omega
  · intro i a hi ha he
    rw [rd_ok (fun _ => 0) (by omega), ok_bind, he, wr_ok (by omega)]

theorem truncVec_ok (P : PSet) {v : List (List Vec)} (hv : IsVV P.L 16 v) :
    Ok (truncVec P v) fun r => IsVV P.L 16 r ∧ ∀ i < P.L, ∀ k, vecP (r.getD i []) k = (vecP (v.getD i []) k + 4) % 65536 / 8 := by
  unfold truncVec
  refine (loop_inv (fun n (r : List (List Vec)) => IsVV P.L 16 r ∧ ∀ i < P.L, ∀ k, vecP (r.getD i []) k =
    if i < n then (vecP (v.getD i []) k + 4) % 65536 / 8 else vecP (v.getD i []) k) ⟨hv, fun i _ k => by simp⟩ ?_).mono ?_
  · rintro i r hi ⟨hr, h⟩
    refine (rowLoop_ok (N / 16) i [] r (by rw [hr.1]; exact hi) _ _ _ ?_ (truncRow_ok (hr.2 i hi))).mono ?_
    · intro j r hj hir
      rw [rd_ok [] hir, ok_bind]
      simp only [bind_assoc]
    · rintro r' ⟨x, ⟨hxl, hxm⟩, rfl⟩
      refine ⟨⟨by simp [hr.1], fun i' hi' => ?_⟩, fun i' hi' k => ?_⟩
      · rw [getD_set]; split
        · exact hxl
        · exact hr.2 i' hi'
      · rw [getD_set]
        by_cases hii : i = i'
        · subst hii
          rw [if_pos ⟨rfl, by rw [hr.1]; exact hi⟩, hxm k, if_pos (by omega), h i hi k, if_neg (by omega)]
        · rw [if_neg (by tauto), h i' hi' k]
          by_cases h3 : i' < i
          · rw [if_pos h3, if_pos (by omega)]
          · rw [if_neg h3, if_neg (by omega)]
  · rintro r ⟨hr, h⟩
    refine ⟨hr, fun i hi k => ?_⟩
    have := h i hi k
    rwa [if_pos hi] at this

theorem roundP_congr {y x : Poly} (h : EqMod 8192 y x) : EqMod 1024 (fun k => (y k + 4) % 65536 / 8) (USpec.roundP 13 x) := by
  intro k
  have := h k
  simp only [USpec.roundP, USpec.h1]
  norm_num
  omega

/-- The array into which a vector of rounded polynomials is stored. -/
theorem stored_ok (P : PSet) {dst : List (List (BitVec 16))} {v r : List (List Vec)} (hd : IsVec P.L dst) (hr : IsVV P.L 16 r)
    (h : ∀ i < P.L, ∀ k, vecP (r.getD i []) k = (vecP (v.getD i []) k + 4) % 65536 / 8) {x : PVec P.L}
    (hx : ∀ i : Fin P.L, EqMod 8192 (vecP (v.getD i [])) (x i)) :
    Ok (storeVec P dst r) fun d => IsVec P.L d ∧ packVec 10 (toV P.L d) = packVec 10 fun i => USpec.roundP 13 (x i) := by
  rw [storeVec_ok P hd hr]
  refine Ok.pure ⟨⟨by simp, fun i hi => by rw [getD_map_range _ _ _ _ hi, length_rowOf]⟩, ?_⟩
  apply packVec_congr (by omega)
  intro i
  unfold toV
  rw [getD_map_range _ _ _ _ i.isLt, toP_rowOf, show vecP (r.getD i []) = fun k => (vecP (v.getD i []) k + 4) % 65536 / 8 from funext (h i i.isLt)]
  exact roundP_congr (hx i)

theorem addH1_ok {v : List Vec} (hv : v.length = 16) : Ok (addH1 v) fun r => r.length = 16 ∧ ∀ k, vecP r k = (vecP v k + 4) % 65536 := by
  unfold addH1
  rw [show N / 16 = 16 from rfl, loop_rows 16 v hv (fun _ => 0) (fun j => fun l => (v.getD j fun _ => 0) l + H1_avx l)]
  · refine Ok.pure ⟨by simp, fun k => ?_⟩
    rw [vecP_map, ← getD_lane v k]
    generalize (v.getD (k.val / 16) fun _ => 0) ⟨k.val % 16, Nat.mod_lt _ (by decide)⟩ = x
    show (((x + 4#16).toNat : Nat) : Int) = _
    rw [BitVec.toNat_add]
    show (((x.toNat + 4) % 65536 : Nat) : Int) = _
    omega
  · intro i a hi ha he
    rw [rd_ok (fun _ => 0) (by omega), ok_bind, he, wr_ok (by omega)]

theorem encodeMessage_ok {v : List Vec} {m : List (BitVec 16)} (hv : v.length = 16) (hm : m.length = 256) :
    Ok (encodeMessage v m) fun r => r.length = 16 ∧ ∀ k, vecP r k = (512 * toP m k) % 65536 := by
  unfold encodeMessage
  rw [show N / 16 = 16 from rfl, loop_rows 16 v hv (fun _ => 0) (fun j => fun l => m.getD (j * 16 + l.val) 0 <<< (EP - 1))]
  · refine Ok.pure ⟨by simp, fun k => ?_⟩
    rw [vecP_map]
    unfold toP
    rw [show k.val / 16 * 16 + (⟨k.val % 16, Nat.mod_lt _ (by decide)⟩ : Fin 16).val = k.val by show k.val / 16 * 16 + k.val % 16 = k.val; omega]
    generalize m.getD k.val 0 = x
    show (((x <<< 9).toNat : Nat) : Int) = _
    rw [BitVec.toNat_shiftLeft, Nat.shiftLeft_eq]
    show ((x.toNat * 512 % 65536 : Nat) : Int) = _
    omega
  · intro i a hi ha he
    rw [loadu_ok (by omega), ok_bind, wr_ok (by omega)]

theorem truncEnc_ok (P : PSet) {v m : List Vec} (hv : v.length = 16) (hm : m.length = 16) :
    Ok (truncEnc P v m) fun r => r.length = 16 ∧ ∀ k, vecP r k = (vecP v k - vecP m k) % 1024 / 2 ^ (10 - P.ET) := by
  unfold truncEnc
  rw [show N / 16 = 16 from rfl, loop_rows 16 v hv (fun _ => 0)
    (fun j => fun l => (((v.getD j fun _ => 0) l - (m.getD j fun _ => 0) l) &&& mod_p l) >>> (EP - P.ET))]
  · refine Ok.pure ⟨by simp, fun k => ?_⟩
    rw [vecP_map, ← getD_lane v k, ← getD_lane m k]
    generalize (v.getD (k.val / 16) fun _ => 0) ⟨k.val % 16, Nat.mod_lt _ (by decide)⟩ = x
    generalize (m.getD (k.val / 16) fun _ => 0) ⟨k.val % 16, Nat.mod_lt _ (by decide)⟩ = y
    show (((((x - y) &&& 1023#16) >>> (EP - P.ET)).toNat : Nat) : Int) = _
    have e : ((x - y) &&& 1023#16).toNat = (x - y).toNat % 1024 := by
      rw [BitVec.toNat_and]
      exact Nat.and_two_pow_sub_one_eq_mod _ 10
    have e2 : (((x - y).toNat % 1024 : Nat) : Int) = ((x.toNat : Int) - y.toNat) % 1024 := by
      have h1 := x.isLt
      have h2 := y.isLt
      rw [BitVec.toNat_sub]
      show (((2 ^ 16 - y.toNat + x.toNat) % 65536 % 1024 : Nat) : Int) = _
      omega
    rw [BitVec.toNat_ushiftRight, e, Nat.shiftRight_eq_div_pow, Int.natCast_div, e2]
    rfl
  · intro i a hi ha he
    rw [rd_ok (fun _ => 0) (by omega), ok_bind, rd_ok (fun _ => 0) (by omega), ok_bind, he, wr_ok (by omega)]

theorem encodeMsg_congr (P : PSet) {y v m : Poly} (hy : EqMod 8192 y v) :
    EqMod (2 ^ P.ET) (fun k => ((y k + 4) % 65536 - (512 * m k) % 65536) % 1024 / 2 ^ (10 - P.ET)) (USpec.encodeMsg 13 P.ET v m) := by
  intro k
  have := hy k
  beta_reduce
  cases P <;> simp [USpec.encodeMsg, PSet.ET, USpec.h1] <;> omega

theorem iand_1023 (x : Int) : iand x 1023 = x % 1024 := by
  unfold iand
  rw [BitVec.toNat_and, show (BitVec.ofNat 32 1023).toNat = 2 ^ 10 - 1 from rfl, Nat.and_two_pow_sub_one_eq_mod, BitVec.toNat_ofInt]
  norm_num
  omega

theorem decRound_ok (P : PSet) {v cm : List (BitVec 16)} (hv : v.length = 256) (hm : cm.length = 256) :
    Ok (decRound P v cm) fun r => r.length = 256 ∧ (∀ k < 256, (r.getD k 0).toNat < 2) ∧
      ∀ k, toP r k = (toP v k + h2 P - 2 ^ (10 - P.ET) * toP cm k) % 1024 / 512 := by
  unfold decRound
  have hs : ∀ x : Int, 0 ≤ x % 1024 / 512 ∧ x % 1024 / 512 < 2 := fun x => by omega
  rw [show N = 256 from rfl, loop_rows 256 v hv 0 (fun j => u16 ((prom (v.getD j 0) + h2 P - 2 ^ (10 - P.ET) * prom (cm.getD j 0)) % 1024 / 512))]
  · refine Ok.pure ⟨by simp, fun k hk => ?_, fun k => ?_⟩
    · rw [getD_map_range _ _ _ _ hk]
      generalize prom (v.getD k 0) + h2 P - 2 ^ (10 - P.ET) * prom (cm.getD k 0) = x
      have h1 := hs x
      have := u16_small h1.1 (by omega)
      omega
    · show (((((List.range 256).map fun j => u16 ((prom (v.getD j 0) + h2 P - 2 ^ (10 - P.ET) * prom (cm.getD j 0)) % 1024 / 512)).getD k.val 0).toNat : Nat) : Int)
        = (prom (v.getD k.val 0) + h2 P - 2 ^ (10 - P.ET) * prom (cm.getD k.val 0)) % 1024 / 512
      rw [getD_map_range _ _ _ _ k.isLt]
      generalize prom (v.getD k 0) + h2 P - 2 ^ (10 - P.ET) * prom (cm.getD k 0) = x
      have h1 := hs x
      exact u16_small h1.1 (by omega)
  · intro j a' hj ha hr
    have h1' := prom_range (v.getD j 0)
    have h2' := prom_range (cm.getD j 0)
    have hh : 0 ≤ h2 P ∧ h2 P ≤ 1024 := by cases P <;> decide
    have hp : ∃ c : Int, (2 : Int) ^ (EP - P.ET) = c ∧ 1 ≤ c ∧ c ≤ 128 := ⟨_, rfl, by cases P <;> decide⟩
    obtain ⟨c, hc, hc1, hc2⟩ := hp
    have hmul : prom (cm.getD j 0) * c ≤ 65536 * 128 := Int.mul_le_mul (by omega) hc2 (by omega) (by omega)
    have hmul0 : 0 ≤ prom (cm.getD j 0) * c := Int.mul_nonneg (by omega) (by omega)
    rw [rd_ok 0 (by omega), ok_bind, hr, rd_ok 0 (by omega), ok_bind, iadd_ok (by omega), ok_bind,
      ishl_ok (a := prom (cm.getD j 0)) (k := EP - P.ET) ⟨h2'.1, by rw [hc]; omega⟩ (by cases P <;> decide), ok_bind, isub_ok (by rw [hc]; omega), ok_bind, wr_ok (by omega),
      iand_1023]
    rw [mul_comm (prom (cm.getD j 0))]
    rfl

theorem decodeMsg_congr (P : PSet) {y v c : Poly} (hy : EqMod 1024 y v) :
    EqMod (2 ^ 1) (fun k => (y k + h2 P - 2 ^ (10 - P.ET) * c k) % 1024 / 512) (USpec.decodeMsg 13 P.ET v c) := by
  intro k
  have := hy k
  cases P <;> simp [USpec.decodeMsg, PSet.ET, USpec.h2, h2, EQ, EP] <;> omega

theorem POL2MSG_ok {data : List (BitVec 16)} {msg : List Byte} (hd : data.length = 256) (hb : ∀ k < 256, (data.getD k 0).toNat < 2)
    (hm : 32 ≤ msg.length) : POL2MSG data msg = .ok (writeAt msg 0 (pack 1 (toP data))) := by
  let g : Nat → Byte := fun m => BitVec.ofNat 8 (natOfBits 8 fun j => (data.getD (8 * m + j) 0).getLsbD 0)
  have hg : (List.range 32).map g = pack 1 (toP data) := by
    rw [pack]
    apply List.map_congr_left
    intro m hm
    simp at hm
    simp only [g]
    congr 1
    apply natOfBits_congr
    intro j hj
    rw [streamBit_toP _ _ _ (by omega)]
    simp [Nat.mod_one]
  rw [← hg, ← flatMap_singleton_eq_map]
  unfold POL2MSG
  rw [show KEYBYTES = 32 from rfl]
  apply loop_blocks 1 (fun j => [g j]) (fun _ => rfl) 32 msg 0 (by omega)
  intro j a hj ha
  have hinner : ∀ i, i ≤ 8 → loop i (a.set j 0) (fun i message_dec => do
      let b ← rdN message_dec j
      let d ← rdN data (j * 8 + i)
      wr message_dec j (n8 (b ||| (d <<< i)))) =
      .ok (a.set j (BitVec.ofNat 8 (natOfBits i fun t => (data.getD (8 * j + t) 0).getLsbD 0))) := by
    intro i
    induction i with
    | zero => intro _; rfl
    | succ i ih =>
      intro hi
      have h2 := hb (8 * j + i) (by omega)
      rw [loop_succ, ih (by omega), ok_bind, rdN_ok (by rw [List.length_set]; omega), ok_bind, rdN_ok (by omega), ok_bind,
        wr_ok (by rw [List.length_set]; omega), getD_set, if_pos ⟨rfl, by omega⟩, List.set_set]
      congr 2
      have hlt := natOfBits_lt i fun t => (data.getD (8 * j + t) 0).getLsbD 0
      have h256 : (2:Nat) ^ i ≤ 2 ^ 8 := Nat.pow_le_pow_right (by omega) (by omega)
      have e : (data.getD (j * 8 + i) 0).toNat &&& 0x01 = (data.getD (j * 8 + i) 0).toNat := by
        rw [Nat.and_one_is_mod, Nat.mul_comm j]; omega
      rw [n8, BitVec.toNat_ofNat, Nat.mod_eq_of_lt (by omega), ← e, or_bit_natOfBits]
      rw [Nat.mul_comm, BitVec.testBit_toNat]
  rw [wr_ok (by omega), ok_bind, hinner 8 (by omega), wrs_ok _ _ _ (by simp; omega), Nat.zero_add, Nat.one_mul]
  simp only [writeAt, g]
  rw [List.set_eq_take_append_cons_drop, if_pos (by omega)]
  simp

theorem clear_ok {v : List Vec} (hv : v.length = 16) : Ok (clear v) fun r => r.length = 16 := by
  unfold clear
  rw [show N / 16 = 16 from rfl, loop_rows 16 v hv (fun _ => 0) (fun j => fun l => (v.getD j fun _ => 0) l ^^^ (v.getD j fun _ => 0) l)]
  · exact Ok.pure (by simp)
  · intro i a hi ha he
    rw [rd_ok (fun _ => 0) (by omega), ok_bind, he, wr_ok (by omega)]

/-! ### Encryption scheme -/

theorem isVVs_uninit (P : PSet) (t : Nat) : ∀ i < P.L, IsVV P.L 16 (((List.range P.L).map fun i => uninitVV (t + i) P.L 16).getD i []) := by
  intro i hi
  rw [getD_map_range _ _ _ _ hi]
  exact isVV_uninitVV _ _ _

theorem CT_eq (P : PSet) : P.BYTES_CCA_DEC = P.L * 320 + 32 * P.ET := by cases P <;> rfl
theorem SC_eq (P : PSet) : P.SCALEBYTES_KEM = 32 * P.ET := by cases P <;> rfl

theorem indcpa_keypair_ok {σ : Type} {lib : Lib} {sym : USpec.Sym} (hlib : LibOk lib sym) (P : PSet) (rb : RandomBytes σ) (st st1 st2 : σ)
    (r1 r2 : List Byte) (hd1 : Delivers rb 32 st r1 st1) (hd2 : Delivers rb 32 st1 r2 st2)
    (pk sk : List Byte) (hpk : pk.length = P.INDCPA_PUBLICKEYBYTES) (hsk : P.INDCPA_SECRETKEYBYTES ≤ sk.length) :
    indcpa_kem_keypair lib P rb pk sk st =
      .ok (USpec.pkeKeyGenPk (spec P sym) (sym.prf r1 32) r2, writeAt sk 0 (USpec.pkeKeyGenSk (spec P sym) r2), st2) := by
  obtain ⟨hl1, hr1⟩ := hd1
  obtain ⟨hl2, hr2⟩ := hd2
  have hpl : P.INDCPA_PUBLICKEYBYTES = P.L * 320 + 32 := rfl
  have hsl : P.INDCPA_SECRETKEYBYTES = P.L * 416 := rfl
  have hlA := hlib.lenPrf r1 32 hl1
  unfold indcpa_kem_keypair
  rw [hr1 _ _ (by simp), ok_bind]
  dsimp only
  rw [writeAt_full _ _ (by simp [hl1]), show SEEDBYTES = 32 from rfl, hlib.prf _ _ _ _ _ (by decide) (by simp [hl1]) (by simp [hl1]), ok_bind, List.drop_zero,
    List.take_of_length_le (by simp [hl1]), writeAt_full _ _ (by rw [hlA, hl1]), hr2 _ _ (by simp), ok_bind]
  dsimp only
  rw [writeAt_full _ _ (by simp [hl2])]
  generalize sym.prf r1 32 = seedA at *
  rw [GenMatrix_ok hlib P (isMat_uninitMat _ _) hlA, ok_bind, GenSecret_ok hlib P (isVec_uninitVec _ _) (by omega), ok_bind,
    List.drop_zero, List.take_of_length_le (show r2.length ≤ 32 by omega),
    loadVec_eq P (isVV_uninitVV _ _ _) (isVec_ofV _), ok_bind, loadMat_eq P (by simp) (isVVs_uninit P _) (isMat_ofM _), ok_bind]
  obtain ⟨b', h1, h2, h3⟩ := evalAll_ok P (isVV_vecsV P (ofV (redV (USpec.genSecret (spec P sym) r2)))) (isVV_uninitVV 146 P.L 64)
  rw [h1, ok_bind]
  obtain ⟨r, h4, h5, h6⟩ := matrix_ok P 1 (USpec.genMatrix (spec P sym) seedA) (redV (USpec.genSecret (spec P sym) r2)) h2 h3
    (isVV_uninitVV 147 P.L 16)
  rw [h4, ok_bind]
  obtain ⟨r', h7, h8, h9⟩ := truncVec_ok P h5
  rw [h7, ok_bind, POLVECq2BS_ok P (isVec_ofV _) (by omega), ok_bind]
  obtain ⟨d, h10, h11, h12⟩ := stored_ok P (isVec_ofV (redV (USpec.genSecret (spec P sym) r2))) h8 h9 h6
  rw [h10, ok_bind, POLVECp2BS_ok P h11 (by omega), ok_bind, h12]
  have epk : packVec 10 (fun i => USpec.roundP 13 (matVec (if (1 : Int) = 0 then USpec.genMatrix (spec P sym) seedA else
      transpose (USpec.genMatrix (spec P sym) seedA)) (redV (USpec.genSecret (spec P sym) r2)) i)) = packVec 10 (USpec.pubVec (spec P sym) seedA r2) := by
    apply packVec_congr (by omega)
    intro i
    rw [if_neg (by decide)]
    have := roundP_congr (EqMod.refl 8192 (matVec (transpose (USpec.genMatrix (spec P sym) seedA)) (redV (USpec.genSecret (spec P sym) r2)) i))
    refine EqMod.trans (EqMod.symm this) (roundP_congr ?_)
    exact matVec_congr (m := 8192) (fun i j => EqMod.refl _ _) (fun j => redP_eqMod (by decide) _) i
  have esk : packVec 13 (toV P.L (ofV (redV (USpec.genSecret (spec P sym) r2)))) = USpec.pkeKeyGenSk (spec P sym) r2 := by
    apply packVec_congr (k := 13) (by omega)
    intro i
    rw [toV_ofV]; exact toP_ofP_redP _
  rw [epk, esk]
  have hlp : (packVec 10 (USpec.pubVec (spec P sym) seedA r2)).length = P.L * 320 := length_packVec _ _ _
  have e1 : P.POLYVECCOMPRESSEDBYTES = P.L * 320 := rfl
  rw [memcpy_ok _ _ _ _ _ (by omega) (by rw [length_writeAt _ _ _ (by omega)]; omega), ok_bind, List.drop_zero,
    List.take_of_length_le (by omega), e1, ← hlp, writeAt_concat _ _ _ (by omega)]
  rfl

theorem indcpa_enc_ok {lib : Lib} {sym : USpec.Sym} (hlib : LibOk lib sym) (P : PSet) (m : List Byte) (mOff : Nat) (seed : List Byte)
    (seedOff : Nat) (pk : List Byte) (pkOff : Nat) (c : List Byte) (hm : mOff + 32 ≤ m.length) (hs : seedOff + 32 ≤ seed.length)
    (hpk : pkOff + P.INDCPA_PUBLICKEYBYTES ≤ pk.length) (hc : c.length = P.BYTES_CCA_DEC) :
    indcpa_kem_enc lib P m mOff seed seedOff pk pkOff c =
      .ok (USpec.pkeEnc (spec P sym) ((m.drop mOff).take 32) ((seed.drop seedOff).take 32) ((pk.drop pkOff).take P.INDCPA_PUBLICKEYBYTES)) := by
  have hpl : P.INDCPA_PUBLICKEYBYTES = P.L * 320 + 32 := rfl
  have e1 : P.POLYVECCOMPRESSEDBYTES = P.L * 320 := rfl
  have hcl := CT_eq P
  have hsc := SC_eq P
  have ePK : ((pk.drop pkOff).take P.INDCPA_PUBLICKEYBYTES).drop (P.L * 320) = (pk.drop (pkOff + P.POLYVECCOMPRESSEDBYTES)).take 32 := by
    rw [List.drop_take, List.drop_drop, hpl, e1]; congr 1; omega
  unfold indcpa_kem_enc
  rw [show SEEDBYTES = 32 from rfl, memcpy_ok _ _ _ _ _ (by omega) (by simp), ok_bind, writeAt_full _ _ (by simp; omega), ← ePK]
  generalize hPKd : (pk.drop pkOff).take P.INDCPA_PUBLICKEYBYTES = PK
  have hPKl : PK.length = P.L * 320 + 32 := by rw [← hPKd]; simp; omega
  rw [GenMatrix_ok hlib P (isMat_uninitMat _ _) (by simp [hPKl]), ok_bind, GenSecret_ok hlib P (isVec_uninitVec _ _) (by omega), ok_bind]
  generalize hS : (seed.drop seedOff).take 32 = S
  rw [loadVec_eq P (isVV_uninitVV _ _ _) (isVec_ofV _), ok_bind, loadMat_eq P (by simp) (isVVs_uninit P _) (isMat_ofM _), ok_bind]
  obtain ⟨b', h1, h2, h3⟩ := evalAll_ok P (isVV_vecsV P (ofV (redV (USpec.genSecret (spec P sym) S)))) (isVV_uninitVV 155 P.L 64)
  rw [h1, ok_bind]
  obtain ⟨r, h4, h5, h6⟩ := matrix_ok P 0 (USpec.genMatrix (spec P sym) (PK.drop (P.L * 320))) (redV (USpec.genSecret (spec P sym) S)) h2 h3
    (isVV_uninitVV 156 P.L 16)
  rw [h4, ok_bind]
  obtain ⟨r', h7, h8, h9⟩ := truncVec_ok P h5
  obtain ⟨d, h10, h11, h12⟩ := stored_ok P (isVec_uninitVec 157 P.L) h8 h9 h6
  rw [h7, ok_bind, h10, ok_bind, POLVECp2BS_ok P h11 (by omega), ok_bind, BS2POLVECp_ok P (isVec_uninitVec _ _) (by omega), ok_bind,
    loadVec_eq P (isVV_uninitVV _ _ _) (isVec_ofV _), ok_bind]
  obtain ⟨vp, h13, h14, h15⟩ := inner_ok P (unpackVec 10 P.L (pk.drop pkOff)) (redV (USpec.genSecret (spec P sym) S)) h2 h3 (length_uninitVecs 160 16)
  rw [h13, ok_bind]
  obtain ⟨vp', h16, h17, h18⟩ := addH1_ok h14
  rw [h16, ok_bind, BS2POLmsg_ok m mOff _ (length_uninit _ _ _) (by omega), ok_bind]
  obtain ⟨mv, h19, h20, h21⟩ := encodeMessage_ok (length_uninitVecs 162 16) (length_ofP (unpack 1 (m.drop mOff)))
  obtain ⟨w, h22, h23, h24⟩ := truncEnc_ok P h17 h20
  rw [h19, ok_bind, h22, ok_bind, rd_ok [] (by rw [h11.1]; cases P <;> decide), ok_bind, storeRow_ok (h11.2 0 (by cases P <;> decide)) h23, ok_bind,
    SABER_pack_ok P (by simp) (by rw [length_uninit, hsc]), ok_bind, h12, toP_rowOf]
  have ebp : packVec 10 (fun i => USpec.roundP 13 (matVec (if (0 : Int) = 0 then USpec.genMatrix (spec P sym) (PK.drop (P.L * 320)) else
      transpose (USpec.genMatrix (spec P sym) (PK.drop (P.L * 320)))) (redV (USpec.genSecret (spec P sym) S)) i)) =
      packVec 10 (fun i => USpec.roundP 13 (matVec (USpec.genMatrix (spec P sym) (PK.drop (P.L * 320))) (USpec.genSecret (spec P sym) S) i)) := by
    apply packVec_congr (by omega)
    intro i
    rw [if_pos rfl]
    have := roundP_congr (EqMod.refl 8192 (matVec (USpec.genMatrix (spec P sym) (PK.drop (P.L * 320))) (redV (USpec.genSecret (spec P sym) S)) i))
    refine EqMod.trans (EqMod.symm this) (roundP_congr ?_)
    exact matVec_congr (m := 8192) (fun i j => EqMod.refl _ _) (fun j => redP_eqMod (by decide) _) i
  have eb : ∀ i, unpackVec 10 P.L (pk.drop pkOff) i = unpackVec 10 P.L PK i := by
    intro i
    rw [← hPKd, unpackVec_take _ _ _ _ (by omega)]
  have em : pack P.ET (vecP w) = pack P.ET (USpec.encodeMsg 13 P.ET (innerProd (unpackVec 10 P.L PK) (USpec.genSecret (spec P sym) S)) (unpack 1 ((m.drop mOff).take 32))) := by
    apply pack_congr (by cases P <;> decide)
    have e : vecP w = fun k => ((vecP vp k + 4) % 65536 - (512 * unpack 1 ((m.drop mOff).take 32) k) % 65536) % 1024 / 2 ^ (10 - P.ET) := by
      funext k
      have h1 := unpack_range 1 (m.drop mOff) k
      rw [h24, h18, h21, toP_ofP, Int.emod_eq_of_lt h1.1 (by omega), unpack_take _ _ _ (by omega)]
    rw [e]
    apply encodeMsg_congr
    refine EqMod.trans h15 ?_
    exact innerProd_congr (m := 8192) (fun j => by rw [eb]; exact EqMod.refl _ _) (fun j => redP_eqMod (by decide) _)
  have hlb : (packVec 10 (fun i => USpec.roundP 13 (matVec (USpec.genMatrix (spec P sym) (PK.drop (P.L * 320))) (USpec.genSecret (spec P sym) S) i))).length = P.L * 320 :=
    length_packVec _ _ _
  rw [ebp, em, hsc, memcpy_ok _ _ _ _ _ (by rw [length_pack]; omega) (by rw [length_writeAt _ _ _ (by omega)]; omega), List.drop_zero,
    List.take_of_length_le (by rw [length_pack]), e1]
  have := writeAt_concat c _ (pack P.ET (USpec.encodeMsg 13 P.ET (innerProd (unpackVec 10 P.L PK) (USpec.genSecret (spec P sym) S)) (unpack 1 ((m.drop mOff).take 32))))
    (show c.length = (packVec 10 (fun i => USpec.roundP 13 (matVec (USpec.genMatrix (spec P sym) (PK.drop (P.L * 320))) (USpec.genSecret (spec P sym) S) i))).length + _ by
      rw [hlb, length_pack]; omega)
  rw [hlb] at this
  rw [this]
  rfl

theorem indcpa_dec_ok (P : PSet) (sym : USpec.Sym) (sk c m : List Byte) (hsk : P.INDCPA_SECRETKEYBYTES ≤ sk.length)
    (hc : P.BYTES_CCA_DEC ≤ c.length) (hm : 32 ≤ m.length) :
    indcpa_kem_dec P sk c m = .ok (writeAt m 0 (USpec.pkeDec (spec P sym) (sk.take P.INDCPA_SECRETKEYBYTES) (c.take P.BYTES_CCA_DEC))) := by
  have hsl : P.INDCPA_SECRETKEYBYTES = P.L * 416 := rfl
  have e1 : P.POLYVECCOMPRESSEDBYTES = P.L * 320 := rfl
  have hcl := CT_eq P
  have hsc := SC_eq P
  unfold indcpa_kem_dec
  rw [BS2POLVECq_ok P (isVec_uninitVec _ _) (by omega), ok_bind, BS2POLVECp_ok P (isVec_uninitVec _ _) (by omega), ok_bind,
    List.drop_zero, List.drop_zero, loadVec_eq P (isVV_uninitVV _ _ _) (isVec_ofV _), ok_bind, loadVec_eq P (isVV_uninitVV _ _ _) (isVec_ofV _), ok_bind]
  obtain ⟨v0, h0, h0'⟩ := clear_ok (length_uninitVecs 174 16)
  rw [h0, ok_bind]
  obtain ⟨b', hb1, hb2, hb3⟩ := evalAll_ok P (isVV_vecsV P (ofV (unpackVec 13 P.L sk))) (isVV_uninitVV 175 P.L 64)
  rw [hb1, ok_bind]
  obtain ⟨v, h13, h14, h15⟩ := inner_ok P (unpackVec 10 P.L c) (unpackVec 13 P.L sk) hb2 hb3 h0'
  rw [h13, ok_bind, storeRow_ok (by simp) h14, ok_bind, memcpy_ok _ _ _ _ _ (by omega) (by simp), ok_bind,
    writeAt_full _ _ (by simp; omega), SABER_un_pack_ok P (by simp [N]) (by simp; omega), ok_bind, e1]
  obtain ⟨w, hw, hwl, hwb, hwm⟩ := decRound_ok P (length_rowOf v) (length_ofP (unpack P.ET ((c.drop (P.L * 320)).take P.SCALEBYTES_KEM)))
  rw [hw, ok_bind, POL2MSG_ok hwl hwb hm]
  unfold USpec.pkeDec
  refine congrArg (fun z => Except.ok (writeAt m 0 z)) ?_
  apply pack_congr (by omega)
  have hcm : ∀ k, toP (ofP (unpack P.ET ((c.drop (P.L * 320)).take P.SCALEBYTES_KEM))) k = unpack P.ET ((c.take P.BYTES_CCA_DEC).drop (P.L * 320)) k := by
    intro k
    have h1 := unpack_range P.ET ((c.drop (P.L * 320)).take P.SCALEBYTES_KEM) k
    have h2 : (2 : Int) ^ P.ET ≤ 65536 := by cases P <;> decide
    rw [toP_ofP, Int.emod_eq_of_lt h1.1 (by omega), List.drop_take, show P.BYTES_CCA_DEC - P.L * 320 = P.SCALEBYTES_KEM by omega]
  have : toP w = fun k => (vecP v k + h2 P - 2 ^ (10 - P.ET) * unpack P.ET ((c.take P.BYTES_CCA_DEC).drop (P.L * 320)) k) % 1024 / 512 := by
    funext k; rw [hwm, hcm, toP_rowOf]
  rw [this]
  apply decodeMsg_congr
  refine EqMod.trans (EqMod.of_dvd (m := 8192) (by decide) h15) ?_
  rw [← unpackVec_take 10 P.L P.BYTES_CCA_DEC c (by omega), ← unpackVec_take 13 P.L P.INDCPA_SECRETKEYBYTES sk (by omega)]
  exact EqMod.refl _ _

end Saber.Avx
