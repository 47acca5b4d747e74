import Verif.Proof.M0.GenMatrix
import Verif.Proof.M0.PolyMul
import Verif.Proof.Kem
import Verif.Spec.M0
/-!
# `SABER_indcpa.c` of the Cortex-M0 port
-/
namespace Saber.M0
open Saber Spec Spec.Keccak

variable [Spec.Keccak.Permutation] [StatePermute] [Permutes]

/-! ### Incremental matrix generation -/

/-- The static variables of `GenMatrix_poly` before the call for polynomial `k` of the matrix of `seed`. -/
def MState (seed : List Byte) (k : Nat) (g : GS) : Prop :=
  if k = 0 then g.buf.length = 280 ∧ g.s.length = 25
  else ∃ s0, (∀ n M, n ≤ 168 * M → Keccak.shake128 seed n = (sqStream s0 M).take n) ∧ Before s0 k g

omit [StatePermute] [Permutes] in
theorem unpack_stream (seed : List Byte) (s0 : List (BitVec 64)) (h : ∀ n M, n ≤ 168 * M → Keccak.shake128 seed n = (sqStream s0 M).take n)
    (k : Nat) (hk : k ≤ 8) :
    unpack 13 ((sqStream s0 23).drop (416 * k)) = unpack 13 ((Keccak.shake128 seed 3744).drop (416 * k)) := by
  rw [h 3744 23 (by omega), List.drop_take, unpack_take _ _ _ (by omega)]

theorem GenMatrix_call (seed : List Byte) (hs : seed.length = 32) (k n : Nat) (hk : k ≤ 8) (hn : n = 0 ↔ k = 0) (a : List (BitVec 16))
    (ha : a.length = 256) (g : GS) (hg : MState seed k g) :
    Ok (GenMatrix_poly a seed 0 n g) fun o => o.1 = ofP (unpack 13 ((Keccak.shake128 seed 3744).drop (416 * k))) ∧ MState seed (k + 1) o.2 := by
  unfold MState at *
  simp only [Nat.succ_ne_zero, if_false]
  by_cases h0 : k = 0
  · subst h0
    rw [if_pos rfl] at hg
    obtain rfl := hn.2 rfl
    refine (GenMatrix_poly_first a ha seed 0 (by omega) g hg.1 hg.2).mono ?_
    rintro o ⟨s0, h1, h2, h3⟩
    rw [List.drop_zero, List.take_of_length_le (by omega)] at h1
    refine ⟨?_, s0, h1, h3⟩
    rw [h2, unpack_stream seed s0 h1 0 (by omega)]
  · rw [if_neg h0] at hg
    obtain ⟨s0, h1, h2⟩ := hg
    refine (GenMatrix_poly_next s0 k n hk (by tauto) a ha seed 0 g h2).mono ?_
    rintro o ⟨h3, h4⟩
    refine ⟨?_, s0, h1, h4⟩
    rw [h3, unpack_stream seed s0 h1 k hk]

/-- Entry `(i, j)` of the matrix. -/
def mA (seed : List Byte) (i j : Nat) : Poly := unpack 13 ((Keccak.shake128 seed 3744).drop (416 * (3 * i + j)))

omit [StatePermute] [Permutes] in
theorem genMatrix_eq (seed : List Byte) (i j : Fin 3) : genMatrix saber seed i j = mA seed i.val j.val := by
  unfold genMatrix mA
  rw [Nat.mul_comm 416, Nat.mul_comm 3]
  rfl

omit [Permutation] [StatePermute] [Permutes] in
theorem toP_ofP_unpack (k : Nat) (hk : k ≤ 16) (bs : List Byte) : toP (ofP (unpack k bs)) = unpack k bs := by
  funext i
  have h := unpack_range k bs i
  have h2 : (2 : Int) ^ k ≤ 2 ^ 16 := pow_le_pow_right₀ (by norm_num) hk
  rw [toP_ofP, Int.emod_eq_of_lt h.1 (by omega)]

/-! ### Loops on rows -/

omit [Permutation] [StatePermute] [Permutes] in
theorem packVec_range (k L : Nat) (f : Nat → Poly) : packVec k (fun i : Fin L => f i.val) = (List.range L).flatMap fun i => pack k (f i) := by
  unfold packVec
  rw [List.flatMap_def, List.flatMap_def, ← List.map_coe_finRange_eq_range, List.map_map]
  rfl

omit [Permutation] [StatePermute] [Permutes] in
theorem eq_of_Ok {α : Type} {m : CM α} {v : α} (h : Ok m (· = v)) : m = .ok v := by
  obtain ⟨a, e, rfl⟩ := h
  exact e

omit [Permutation] [StatePermute] [Permutes] in
theorem fill_ok (tag : Nat) : (loop N (uninit 16 tag N) fun j r => wr r j 0) = .ok (List.replicate N 0) := by
  have := memset_ok (uninit 16 tag N) 0 (0 : BitVec 16) N (by simp)
  unfold memset at this
  simp only [Nat.zero_add] at this
  rw [this, writeAt_full _ _ (by simp)]

omit [Permutation] [StatePermute] [Permutes] in
theorem roundRow_m0 (r : List (BitVec 16)) (hr : r.length = 256) :
    Ok (roundRow r) fun r' => r'.length = 256 ∧ ∀ k, toP r' k = (toP r k + 4) % 65536 / 8 := by
  unfold roundRow
  rw [loop_rows 256 r hr 0 (fun j => (r.getD j 0 + 4) >>> 3)]
  · refine Ok.pure ⟨by simp, fun k => ?_⟩
    unfold toP
    rw [getD_map_range _ _ _ _ k.isLt, BitVec.toNat_ushiftRight, BitVec.toNat_add, Nat.shiftRight_eq_div_pow]
    have : (4 : BitVec 16).toNat = 4 := rfl
    rw [this]
    push_cast
    rfl
  · intro j a' hj ha hv
    rw [rd_ok 0 (by omega), ok_bind, wr_ok (by omega), ok_bind, rd_ok 0 (by simp; omega), ok_bind, wr_ok (by simp; omega), List.set_set,
      getD_set, if_pos ⟨rfl, by omega⟩, hv]

omit [Permutation] [StatePermute] [Permutes] in
theorem roundP_congr_m0 {y x : Poly} (h : EqMod 8192 y x) : EqMod 1024 (fun k => (y k + 4) % 65536 / 8) (roundP x) := by
  intro k
  have := h k
  simp only [roundP, Spec.h1]
  omega

omit [Permutation] [StatePermute] [Permutes] in
theorem maskRow_ok (r : List (BitVec 16)) (hr : r.length = 256) :
    (loop N r fun j r => do
      let x ← rd r j
      wr r j (x &&& 1023)) = .ok ((List.range 256).map fun j => r.getD j 0 &&& 1023) := by
  apply loop_rows 256 r hr 0
  intro j a' hj ha hv
  rw [rd_ok 0 (by omega), ok_bind, wr_ok (by omega), hv]

omit [Permutation] [StatePermute] [Permutes] in
theorem and_1023 (x : BitVec 16) : (x &&& 1023).toNat = x.toNat % 1024 := by
  rw [BitVec.toNat_and]
  exact Nat.and_two_pow_sub_one_eq_mod _ 10

omit [Permutation] [StatePermute] [Permutes] in
theorem toP_mask (r : List (BitVec 16)) (k : Fin 256) : toP ((List.range 256).map fun j => r.getD j 0 &&& 1023) k = toP r k % 1024 := by
  unfold toP
  rw [getD_map_range _ _ _ _ k.isLt, and_1023]
  push_cast
  rfl

omit [Permutation] [StatePermute] [Permutes] in
theorem maskVec_ok (v : List (List (BitVec 16))) (hv : IsVec 3 v) :
    Ok (maskVec v) fun v' => IsVec 3 v' ∧ ∀ i, i < 3 → ∀ k, toP (v'.getD i []) k = toP (v.getD i []) k % 1024 := by
  unfold maskVec
  rw [loop_rows 3 v hv.1 [] (fun i => (List.range 256).map fun j => (v.getD i []).getD j 0 &&& 1023)]
  · refine Ok.pure ⟨⟨by simp, fun i hi => ?_⟩, fun i hi k => ?_⟩
    · rw [getD_map_range _ _ _ _ hi]; simp
    · rw [getD_map_range _ _ _ _ hi, toP_mask]
  · intro i a' hi ha hr
    refine eq_of_Ok ((rowLoop_ok N i [] a' (by omega) (fun j r => do
      let x ← rd r j
      wr r j (x &&& 1023)) (· = (List.range 256).map fun j => (v.getD i []).getD j 0 &&& 1023) _ ?_ ?_).mono ?_)
    · intro j r hj hir
      rw [rd_ok [] hir, ok_bind]
      simp only [bind_assoc]
    · rw [hr]
      exact ⟨_, maskRow_ok _ (hv.2 i hi), rfl⟩
    · rintro r ⟨w, rfl, rfl⟩
      rfl

/-! ### The matrix products -/

/-- Key generation: `A^T s`. -/
theorem mul_keypair_ok {E : UB → Prop} {mac : Mac} (hm : ∀ c a b, OkE E (mac c a b) (· = c + a * b)) (seed : List Byte)
    (hs : seed.length = 32) (skpv res : List (List (BitVec 16))) (hsk : IsVec 3 skpv) (hres : IsVec 3 res) (gs : GS) (hg : MState seed 0 gs) :
    OkE E (MatrixVectorMul_keypair mac seed skpv res gs) fun r => IsVec 3 r ∧ ∀ j, j < 3 → ∀ k, toP (r.getD j []) k % 65536 =
      (toP (res.getD j []) k + ∑ i ∈ Finset.range 3, negMul (mA seed i j) (toP (skpv.getD i [])) k) % 65536 := by
  unfold MatrixVectorMul_keypair
  let I : Nat → Nat → List (List (BitVec 16)) × List (BitVec 16) × GS → Prop := fun i j st =>
    IsVec 3 st.1 ∧ st.2.1.length = 256 ∧ MState seed (3 * i + j) st.2.2 ∧ ∀ j', j' < 3 → ∀ k, toP (st.1.getD j' []) k % 65536 =
      (toP (res.getD j' []) k + ∑ i' ∈ Finset.range (if j' < j then i + 1 else i), negMul (mA seed i' j') (toP (skpv.getD i' [])) k) % 65536
  refine OkE.bind (OkE.loop_inv (fun i st => I i 0 st) ?_ ?_) ?_
  · exact ⟨hres, length_uninit _ _ _, hg, fun j' _ k => by simp⟩
  · intro i st hi hI
    replace hi : i < 3 := hi
    refine (OkE.loop_inv (fun j st => I i j st) hI ?_).mono ?_
    · rintro j ⟨r, temp, g⟩ hj ⟨h1, h2, h3, h4⟩
      simp only at h1 h2 h3 h4 ⊢
      replace hj : j < 3 := hj
      obtain ⟨⟨a, g'⟩, e1, ha, hg'⟩ := GenMatrix_call seed hs (3 * i + j) (i + j) (by omega) (by omega) temp h2 g h3
      simp only at ha hg'
      rw [e1, ok_bind]
      simp only
      rw [rd_ok [] (by rw [hsk.1]; exact hi), ok_bind, rd_ok [] (by rw [h1.1]; exact hj), ok_bind]
      have hal : a.length = 256 := by rw [ha]; exact length_ofP _
      refine (pol_mul_spec hm hal (hsk.2 i hi) (h1.2 j hj)).bind ?_
      rintro rj ⟨hl, hrj⟩
      rw [wr_ok (by rw [h1.1]; exact hj), ok_bind]
      refine OkE.pure ⟨⟨by simp [h1.1], fun j' hj' => ?_⟩, hal, hg', fun j' hj' k => ?_⟩
      · simp only
        rw [getD_set]; split
        · exact hl
        · exact h1.2 j' hj'
      · simp only
        rw [getD_set]
        have h4' := h4 j' hj' k
        by_cases e : j = j'
        · subst e
          rw [if_pos ⟨rfl, by rw [h1.1]; exact hj⟩, hrj k, if_pos (by omega), Finset.sum_range_succ, ← add_assoc]
          rw [if_neg (by omega)] at h4'
          rw [Int.add_emod, h4', ← Int.add_emod]
          have ea : toP a = mA seed i j := by rw [ha]; exact toP_ofP_unpack 13 (by omega) _
          rw [ea]
        · rw [if_neg (by tauto), h4']
          by_cases h5 : j' < j
          · rw [if_pos h5, if_pos (by omega)]
          · rw [if_neg h5, if_neg (by omega)]
    · rintro st ⟨h1, h2, h3, h4⟩
      refine ⟨h1, h2, by rwa [show 3 * (i + 1) + 0 = 3 * i + K from rfl], fun j' hj' k => ?_⟩
      have := h4 j' hj' k
      rw [if_pos hj'] at this
      rw [if_neg (by omega), this]
  · rintro ⟨r, t, g⟩ ⟨h1, h2, h3, h4⟩
    refine OkE.pure ⟨h1, fun j hj k => ?_⟩
    have := h4 j hj k
    rwa [if_neg (by omega)] at this

omit [StatePermute] [Permutes] in
theorem matVec_row (seed : List Byte) (s : List (List (BitVec 16))) :
    (fun i : Fin 3 => roundP (matVec (genMatrix saber seed) (toV 3 s) i)) =
      fun i : Fin 3 => roundP fun k => ∑ j ∈ Finset.range 3, negMul (mA seed i.val j) (toP (s.getD j [])) k := by
  funext i
  refine congrArg roundP ?_
  funext k
  rw [Finset.sum_range]
  refine Finset.sum_congr rfl fun j _ => ?_
  exact congrArg (fun a => negMul a (toP (s.getD j.val [])) k) (genMatrix_eq seed i j)

/-- Encryption: `A s'`, rounded and packed. -/
theorem mul_encryption_ok {E : UB → Prop} {mac : Mac} (hm : ∀ c a b, OkE E (mac c a b) (· = c + a * b)) (seed : List Byte)
    (hs : seed.length = 32) (skpv : List (List (BitVec 16))) (hsk : IsVec 3 skpv) (ct : List Byte) (hct : 960 ≤ ct.length) (gs : GS)
    (hg : MState seed 0 gs) :
    OkE E (MatrixVectorMul_encryption mac seed skpv ct gs) (· = writeAt ct 0 (packVec 10
      fun i : Fin 3 => roundP (matVec (genMatrix saber seed) (toV 3 skpv) i))) := by
  have B : ∀ i, i < 3 → ∀ g, MState seed (3 * i) g → ∀ c : List Byte, 960 ≤ c.length → OkE E (do
    let res ← loop N (uninit 16 131 N) fun j r => wr r j 0
    let acc ← loop N (uninit 16 132 N) fun j r => wr r j 0
    let (res, _, g) ← loop K (res, acc, g) fun j (res, acc, g) => do
      let (acc, g) ← GenMatrix_poly acc seed 0 (i + j) g
      let sj ← rd skpv j
      let res ← pol_mul mac acc sj res
      pure (res, acc, g)
    let res ← roundRow res
    let ciphertext ← POLp2BS c 0 res i
    pure (ciphertext, g)) fun o => o.1 = writeAt c (320 * i)
      (pack 10 (roundP fun k => ∑ j ∈ Finset.range 3, negMul (mA seed i j) (toP (skpv.getD j [])) k)) ∧ MState seed (3 * (i + 1)) o.2 := by
    intro i hi g hg c hc
    rw [fill_ok, ok_bind, fill_ok, ok_bind]
    refine OkE.bind (P := fun st => st.1.length = 256 ∧ MState seed (3 * (i + 1)) st.2.2 ∧ ∀ k, toP st.1 k % 65536 =
      (∑ j ∈ Finset.range 3, negMul (mA seed i j) (toP (skpv.getD j [])) k) % 65536) ?_ ?_
    · refine (OkE.loop_inv (fun j (st : List (BitVec 16) × List (BitVec 16) × GS) =>
        st.1.length = 256 ∧ st.2.1.length = 256 ∧ MState seed (3 * i + j) st.2.2 ∧ ∀ k, toP st.1 k % 65536 =
          (∑ j ∈ Finset.range j, negMul (mA seed i j) (toP (skpv.getD j [])) k) % 65536) ?_ ?_).mono ?_
      · refine ⟨List.length_replicate, List.length_replicate, hg, fun k => ?_⟩
        show toP (List.replicate 256 0) k % 65536 = _
        rw [toP_zero]; rfl
      · rintro j ⟨r, acc, g⟩ hj ⟨h1, h2, h3, h4⟩
        simp only at h1 h2 h3 h4 ⊢
        replace hj : j < 3 := hj
        obtain ⟨⟨a, g'⟩, e1, ha, hg'⟩ := GenMatrix_call seed hs (3 * i + j) (i + j) (by omega) (by omega) acc h2 g h3
        simp only at ha hg'
        rw [e1, ok_bind]
        simp only
        rw [rd_ok [] (by rw [hsk.1]; exact hj), ok_bind]
        have hal : a.length = 256 := by rw [ha]; exact length_ofP _
        refine (pol_mul_spec hm hal (hsk.2 j hj) h1).bind ?_
        rintro rj ⟨hl, hrj⟩
        refine OkE.pure ⟨hl, hal, hg', fun k => ?_⟩
        simp only
        have ea : toP a = mA seed i j := by rw [ha]; exact toP_ofP_unpack 13 (by omega) _
        rw [hrj k, Finset.sum_range_succ, ea, Int.add_emod, h4 k, ← Int.add_emod]
      · rintro st ⟨h1, h2, h3, h4⟩
        exact ⟨h1, h3, h4⟩
    · rintro ⟨r, a, g⟩ ⟨h1, h2, h3⟩
      simp only at h1 h2 h3 ⊢
      obtain ⟨r', e, hl, hr⟩ := roundRow_m0 r h1
      rw [e, ok_bind, POLp2BS_m0 _ _ _ _ hl (by omega), ok_bind]
      refine OkE.pure ⟨?_, h2⟩
      simp only
      rw [Nat.zero_add]
      refine congrArg (writeAt c (320 * i)) ?_
      have : toP r' = fun k => (toP r k + 4) % 65536 / 8 := by funext k; exact hr k
      rw [this]
      apply pack_congr (by omega)
      apply roundP_congr_m0
      intro k
      exact Int.ModEq.of_mul_right (m := 8) (h3 k)
  unfold MatrixVectorMul_encryption
  refine OkE.bind (OkE.loop_inv (fun i (st : List Byte × GS) => MState seed (3 * i) st.2 ∧ st.1 = writeAt ct 0
    ((List.range i).flatMap fun i => pack 10 (roundP fun k => ∑ j ∈ Finset.range 3, negMul (mA seed i j) (toP (skpv.getD j [])) k)))
    ⟨hg, by simp [writeAt]⟩ ?_) ?_
  · rintro i ⟨c, g⟩ hi ⟨h1, h2⟩
    simp only at h1 h2 ⊢
    replace hi : i < 3 := hi
    have hl : ((List.range i).flatMap fun i => pack 10 (roundP fun k => ∑ j ∈ Finset.range 3, negMul (mA seed i j) (toP (skpv.getD j [])) k)).length
        = 320 * i := by
      rw [List.length_flatMap]
      simp [length_pack, mul_comm]
    refine (B i hi g h1 c (by rw [h2, length_writeAt _ _ _ (by omega)]; exact hct)).mono ?_
    rintro ⟨c', g'⟩ ⟨h3, h4⟩
    refine ⟨h4, ?_⟩
    simp only at h3 ⊢
    rw [h3, h2, List.range_succ, List.flatMap_append]
    rw [writeAt_after _ _ _ _ _ (by omega) (by rw [length_pack]; omega)]
    simp
  · rintro ⟨c, g⟩ ⟨h1, h2⟩
    refine OkE.pure ?_
    simp only at h2
    rw [h2]
    refine congrArg (writeAt ct 0) ?_
    rw [matVec_row, packVec_range 10 3 fun i => roundP fun k => ∑ j ∈ Finset.range 3, negMul (mA seed i j) (toP (skpv.getD j [])) k]

end Saber.M0
