import Verif.Model.Poly
import Verif.Proof.Pack
import Verif.Proof.Toom
import Verif.Proof.Fips202
import Verif.Proof.Ring
/-!
# Proofs about `poly.c`
-/
namespace Saber
open Spec

/-- The parameters of a parameter set, for the specification. -/
abbrev PSet.spec (P : PSet) : Params := ⟨P.L, P.MU, P.ET⟩

theorem toP_ofP (p : Poly) (k : Fin 256) : toP (ofP p) k = p k % 65536 := by
  unfold toP ofP
  rw [getD_map_range _ _ _ _ k.isLt, BitVec.toNat_ofInt]
  have : Fin.ofNat 256 k.val = k := by simp
  rw [this]
  have h0 : (0 : Int) ≤ p k % 65536 := Int.emod_nonneg _ (by omega)
  show (((p k % 65536).toNat : Nat) : Int) = _
  omega

theorem toP_ofP_mod (p : Poly) (m : Int) (hm : m ∣ 65536) : EqMod m (toP (ofP p)) p := by
  intro k
  rw [toP_ofP, Int.emod_emod_of_dvd _ hm]

theorem toV_ofV {L : Nat} (v : Fin L → Poly) (i : Fin L) : toV L (ofV v) i = toP (ofP (v i)) := by
  unfold toV ofV
  simp

/-- Accumulation of a sum of products in a row. -/
theorem accLoop_ok (L : Nat) (a b : Nat → List (BitVec 16)) (ha : ∀ j < L, (a j).length = 256) (hb : ∀ j < L, (b j).length = 256)
    (res : List (BitVec 16)) (hr : res.length = 256) (body : Nat → List (BitVec 16) → CM (List (BitVec 16)))
    (hbody : ∀ j r, j < L → body j r = poly_mul_acc (a j) (b j) r) :
    Ok (loop L res body) fun r => r.length = 256 ∧
      EqMod 8192 (toP r) (fun k => toP res k + ∑ j ∈ Finset.range L, negMul (toP (a j)) (toP (b j)) k) := by
  refine loop_inv (fun i (r : List (BitVec 16)) => r.length = 256 ∧
      EqMod 8192 (toP r) (fun k => toP res k + ∑ j ∈ Finset.range i, negMul (toP (a j)) (toP (b j)) k)) ⟨hr, ?_⟩ ?_
  · intro k; simp
  · rintro i r hi ⟨hl, h⟩
    rw [hbody i r hi]
    refine (poly_mul_acc_ok (ha i hi) (hb i hi) hl).mono ?_
    rintro r' ⟨hl', h'⟩
    refine ⟨hl', fun k => ?_⟩
    have hk := h k
    beta_reduce at hk ⊢
    rw [h' k, Finset.sum_range_succ, ← add_assoc, Int.add_emod, hk, ← Int.add_emod]

theorem InnerProd_ok (P : PSet) (b s : List (List (BitVec 16))) (res : List (BitVec 16)) (hb : IsVec P.L b) (hs : IsVec P.L s)
    (hr : res.length = 256) :
    Ok (InnerProd P b s res) fun r => r.length = 256 ∧
      EqMod 8192 (toP r) (fun k => toP res k + innerProd (toV P.L b) (toV P.L s) k) := by
  unfold InnerProd
  refine (accLoop_ok P.L (fun j => b.getD j []) (fun j => s.getD j []) hb.2 hs.2 res hr _ ?_).mono ?_
  · intro j r hj
    rw [rd_ok [] (by rw [hb.1]; exact hj), ok_bind, rd_ok [] (by rw [hs.1]; exact hj), ok_bind]
  · rintro r ⟨hl, h⟩
    refine ⟨hl, EqMod.trans h ?_⟩
    intro k
    simp only [innerProd, Finset.sum_range]
    rfl

/-- A loop that updates only row `i` of an array is a loop on that row. -/
theorem rowLoop_ok {α : Type} (n i : Nat) (d : α) (res : List α) (hi : i < res.length) (f : Nat → α → CM α) (Q : α → Prop)
    (body : Nat → List α → CM (List α))
    (hbody : ∀ j r, j < n → i < r.length → body j r = (f j (r.getD i d) >>= fun v => wr r i v))
    (h : Ok (loop n (res.getD i d) f) Q) :
    Ok (loop n res body) fun r => ∃ v, Q v ∧ r = res.set i v := by
  obtain ⟨v, hv, hQ⟩ := h
  have key : ∀ m v, m ≤ n → loop m (res.getD i d) f = .ok v → loop m res body = .ok (res.set i v) := by
    intro m
    induction m with
    | zero =>
      intro v _ hv
      simp only [loop_zero, Except.ok.injEq] at hv ⊢
      rw [← hv]
      apply ext_getD d (by simp)
      intro j hj
      rw [getD_set]
      split
      · rename_i h; rw [h.1]
      · rfl
    | succ m ih =>
      intro v hm hv
      rw [loop_succ] at hv ⊢
      cases hc : loop m (res.getD i d) f with
      | error e => rw [hc] at hv; cases hv
      | ok w =>
        rw [hc, ok_bind] at hv
        rw [ih w (by omega) hc, ok_bind, hbody m _ (by omega) (by simpa using hi), getD_set, if_pos ⟨rfl, hi⟩, hv, ok_bind,
          wr_ok (by simpa using hi), List.set_set]
  exact ⟨_, key n v (Nat.le_refl n) hv, v, hQ, rfl⟩

theorem MatrixVectorMul_ok (P : PSet) (A : List (List (List (BitVec 16)))) (s res : List (List (BitVec 16))) (t : Int)
    (hA : IsMat P.L A) (hs : IsVec P.L s) (hr : IsVec P.L res) :
    Ok (MatrixVectorMul P A s res t) fun r => IsVec P.L r ∧ ∀ i, EqMod 8192 (toV P.L r i)
      (fun k => toV P.L res i k + matVec (if t = 1 then transpose (toM P.L A) else toM P.L A) (toV P.L s) i k) := by
  let a : Nat → Nat → List (BitVec 16) := fun i j => if t = 1 then (A.getD j []).getD i [] else (A.getD i []).getD j []
  have ha : ∀ i j, i < P.L → j < P.L → (a i j).length = 256 := by
    intro i j hi hj
    simp only [a]; split
    · exact (hA.2 j hj).2 i hi
    · exact (hA.2 i hi).2 j hj
  unfold MatrixVectorMul
  refine (loop_inv (fun n (r : List (List (BitVec 16))) => IsVec P.L r ∧ ∀ i, i < P.L → EqMod 8192 (toP (r.getD i []))
      (fun k => toP (res.getD i []) k + if i < n then ∑ j ∈ Finset.range P.L, negMul (toP (a i j)) (toP (s.getD j [])) k else 0))
      ⟨hr, fun i _ k => by simp⟩ ?_).mono ?_
  · rintro i r hi ⟨hv, h⟩
    have hrow := accLoop_ok P.L (a i) (fun j => s.getD j []) (fun j hj => ha i j hi hj) hs.2 (r.getD i []) (hv.2 i hi)
      (fun j x => poly_mul_acc (a i j) (s.getD j []) x) (fun _ _ _ => rfl)
    refine (rowLoop_ok P.L i [] r (by rw [hv.1]; exact hi) _ _ _ ?_ hrow).mono ?_
    · intro j r hj hir
      simp only [a]
      split
      · rw [rd_ok [] (by rw [hA.1]; exact hj), ok_bind, rd_ok [] (by rw [(hA.2 j hj).1]; exact hi), ok_bind,
          rd_ok [] (by rw [hs.1]; exact hj), ok_bind, rd_ok [] hir, ok_bind]
      · rw [rd_ok [] (by rw [hA.1]; exact hi), ok_bind, rd_ok [] (by rw [(hA.2 i hi).1]; exact hj), ok_bind,
          rd_ok [] (by rw [hs.1]; exact hj), ok_bind, rd_ok [] hir, ok_bind]
    · rintro r' ⟨v, ⟨hvl, hvm⟩, rfl⟩
      refine ⟨⟨by simp [hv.1], ?_⟩, ?_⟩
      · intro i' hi'
        rw [getD_set]; split
        · exact hvl
        · exact hv.2 i' hi'
      · intro i' hi' k
        have hk := h i' hi' k
        have hvk := hvm k
        beta_reduce at hk hvk ⊢
        rw [getD_set]
        by_cases hii : i = i'
        · subst hii
          rw [if_pos ⟨rfl, by rw [hv.1]; exact hi⟩, hvk, if_pos (by omega), Int.add_emod, hk, if_neg (by omega), add_zero,
            ← Int.add_emod]
        · rw [if_neg (by tauto), hk]
          by_cases h3 : i' < i
          · rw [if_pos h3, if_pos (by omega)]
          · rw [if_neg h3, if_neg (by omega)]
  · rintro r ⟨hv, h⟩
    refine ⟨hv, ?_⟩
    intro i k
    have := h i.val i.isLt k
    beta_reduce at this ⊢
    rw [if_pos i.isLt] at this
    simp only [toV] at this ⊢
    rw [this]
    simp only [matVec]
    rw [Finset.sum_range]
    congr 2
    apply Finset.sum_congr rfl
    intro j _
    simp only [a]
    split <;> rfl

theorem isVec_uninitVec (tag L : Nat) : IsVec L (uninitVec tag L) := by
  refine ⟨by simp [uninitVec], fun i hi => ?_⟩
  simp [uninitVec, hi]

theorem isMat_uninitMat (tag L : Nat) : IsMat L (uninitMat tag L) := by
  refine ⟨by simp [uninitMat], fun i hi => ?_⟩
  have : (uninitMat tag L).getD i [] = uninitVec (100 * tag + i) L := by simp [uninitMat, hi]
  rw [this]; exact isVec_uninitVec _ _

theorem isVec_zeroVec (L : Nat) : IsVec L (zeroVec L) := by
  refine ⟨by simp [zeroVec], fun i hi => ?_⟩
  simp [zeroVec, hi]

theorem toP_zero (k : Fin 256) : toP (List.replicate N 0) k = 0 := by
  simp [toP]

theorem toV_zeroVec (L : Nat) (i : Fin L) (k : Fin 256) : toV L (zeroVec L) i k = 0 := by
  have : (zeroVec L).getD i.val [] = List.replicate N 0 := by simp [zeroVec]
  rw [toV, this, toP_zero]

theorem isMat_ofM {L : Nat} (A : PMat L) : IsMat L (ofM A) := by
  refine ⟨by simp [ofM], fun i hi => ?_⟩
  have : (ofM A).getD i [] = ofV (A ⟨i, hi⟩) := by simp [ofM, hi]
  rw [this]; exact isVec_ofV _

theorem toM_ofM {L : Nat} (A : PMat L) (i j : Fin L) : toM L (ofM A) i j = toP (ofP (A i j)) := by
  have : (ofM A).getD i.val [] = ofV (A i) := by simp [ofM]
  rw [toM, this, toV_ofV]

theorem GenMatrix_ok (P : PSet) (A : List (List (List (BitVec 16)))) (hA : IsMat P.L A) (seed : List Byte) (off : Nat)
    (hs : off + 32 ≤ seed.length) :
    GenMatrix P A seed off = .ok (ofM (L := P.L) fun i j =>
      unpack 13 ((Keccak.shake128 ((seed.drop off).take 32) (P.L * P.L * 416)).drop ((i.val * P.L + j.val) * 416))) := by
  have hlen : P.L * P.POLYVECBYTES = P.L * P.L * 416 := by cases P <;> rfl
  unfold GenMatrix
  rw [shake128_ok _ _ _ _ _ _ (by simp) hs, ok_bind, writeAt_full _ _ (by simp [length_shake128]), hlen]
  have hl := length_shake128 ((seed.drop off).take 32) (P.L * P.L * 416)
  generalize Keccak.shake128 ((seed.drop off).take 32) (P.L * P.L * 416) = buf at *
  rw [loop_rows P.L A hA.1 [] (fun i => ofV (L := P.L) fun j => unpack 13 (buf.drop ((i * P.L + j.val) * 416)))]
  · rw [← finRange_map_val]; rfl
  · intro i a' hi ha hr
    have hb : i * P.POLYVECBYTES + P.L * 416 ≤ buf.length := by
      rw [hl]
      have e : P.POLYVECBYTES = P.L * 416 := rfl
      rw [e, Nat.mul_assoc, ← Nat.succ_mul]
      exact Nat.mul_le_mul_right _ hi
    rw [rd_ok [] (by omega), ok_bind, hr, BS2POLVECq_ok P buf _ _ (hA.2 i hi) hb, ok_bind, wr_ok (by omega)]
    congr 3
    funext j
    rw [unpackVec, List.drop_drop]
    congr 2
    have e : P.POLYVECBYTES = P.L * 416 := rfl
    rw [e]; ring

theorem GenSecret_ok (P : PSet) (s : List (List (BitVec 16))) (hs : IsVec P.L s) (seed : List Byte) (off : Nat)
    (hb : off + 32 ≤ seed.length) :
    GenSecret P s seed off = .ok (ofV (L := P.L) fun i =>
      centredBinomial P.MU ((Keccak.shake128 ((seed.drop off).take 32) (P.L * P.MU * 32)).drop (i.val * P.MU * 32))) := by
  have hlen : P.L * P.POLYCOINBYTES = P.L * P.MU * 32 := by cases P <;> rfl
  have hc : P.POLYCOINBYTES = P.MU * 32 := by cases P <;> rfl
  unfold GenSecret
  rw [shake128_ok _ _ _ _ _ _ (by simp) hb, ok_bind, writeAt_full _ _ (by simp [length_shake128]), hlen]
  have hl := length_shake128 ((seed.drop off).take 32) (P.L * P.MU * 32)
  generalize Keccak.shake128 ((seed.drop off).take 32) (P.L * P.MU * 32) = buf at *
  rw [loop_rows P.L s hs.1 [] (fun i => ofP (centredBinomial P.MU (buf.drop (i * P.MU * 32))))]
  · rw [← finRange_map_val]; rfl
  · intro i a' hi ha hr
    have hb : i * P.POLYCOINBYTES + P.POLYCOINBYTES ≤ buf.length := by
      rw [hl, hc, Nat.mul_assoc, ← Nat.succ_mul]
      exact Nat.mul_le_mul_right _ hi
    rw [rd_ok [] (by omega), ok_bind, hr, cbd_ok P _ _ _ (hs.2 i hi) hb, ok_bind, wr_ok (by omega), hc, Nat.mul_assoc]

end Saber
