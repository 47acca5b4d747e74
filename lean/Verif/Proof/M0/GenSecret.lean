import Verif.Proof.M0.Stream
import Verif.Proof.Indcpa
/-!
# `GenSecret` of the Cortex-M0 port
-/
namespace Saber.M0
open Saber Spec Spec.Keccak

variable [Spec.Keccak.Permutation] [StatePermute] [Permutes]

omit [Permutation] [StatePermute] [Permutes] in
theorem shiftBuf_ok (n : Nat) (hn : n ≤ 168) {buf T : List Byte} {p : Nat} (hw : Win buf T p 168) (hb : 168 ≤ buf.length) :
    Ok (shiftBuf n buf) fun b => b.length = buf.length ∧ Win b T (p + n) (168 - n) :=
  hw.shift n (168 - n) (by omega) hb

omit [Permutation] [StatePermute] [Permutes] in
theorem Win.nil (buf T : List Byte) (p : Nat) : Win buf T p 0 := fun i hi => by omega
omit [Permutation] [StatePermute] [Permutes] in
theorem Win.le {buf T : List Byte} {p n m : Nat} (h : Win buf T p n) (hm : m ≤ n) : Win buf T p m := fun i hi => h i (by omega)

omit [Permutation] [StatePermute] [Permutes] in
theorem set3 {α : Type} (r : List α) (h : r.length = 3) (a b c : α) : ((r.set 0 a).set 1 b).set 2 c = [a, b, c] := by
  match r, h with
  | [_, _, _], _ => rfl

/-- The three rows, before they are written. -/
theorem GenSecret_rows (r : List (List (BitVec 16))) (hr : IsVec 3 r) (seed : List Byte) (off : Nat) (h : off + 32 ≤ seed.length) :
    Ok (GenSecret r seed off) fun r' => ∃ s0 : List (BitVec 64),
      (∀ n M, n ≤ 168 * M → Keccak.shake128 ((seed.drop off).take 32) n = (sqStream s0 M).take n) ∧
      r' = [noiseRow (sqStream s0 5) 0 256, noiseRow (sqStream s0 5) 256 256, noiseRow (sqStream s0 5) 512 256] := by
  obtain ⟨hr1, hr2⟩ := hr
  unfold GenSecret
  dsimp only
  obtain ⟨s0, e0, hs0, hspec⟩ := absorb_seed (uninit 64 121 25) (length_uninit _ _ _) seed off h
  rw [← bind_assoc, e0, ok_bind]
  have q0 : SqState s0 0 s0 := ⟨hs0, rfl⟩
  have lb : (uninit 8 120 (SHAKE128_RATE + 80)).length = 248 := length_uninit _ _ _
  generalize uninit 8 120 (SHAKE128_RATE + 80) = buf at *
  rw [rd_ok [] (by omega), ok_bind]
  have l0 := hr2 0 (by omega)
  generalize r.getD 0 [] = r0 at l0 ⊢
  obtain ⟨⟨b1, s1⟩, e1, lb1, w1, q1⟩ := q0.squeeze (M := 5) (Win.nil buf (sqStream s0 5) 0) (by omega) (by omega) (by omega)
  rw [e1, ok_bind]
  simp only at lb1 w1 q1 ⊢
  rw [cbd_m0 0 _ 42 b1 _ 0 w1 (by omega) (by omega), ok_bind]
  obtain ⟨⟨b2, s2⟩, e2, lb2, w2, q2⟩ := q1.squeeze (M := 5) (Win.nil b1 (sqStream s0 5) 168) (by omega) (by omega) (by omega)
  rw [e2, ok_bind]
  simp only at lb2 w2 q2 ⊢
  rw [cbd_m0 SHAKE128_RATE _ 22 b2 _ 168 (w2.le (by omega)) (by omega) (by rw [length_writeAt _ _ _ (by simp; omega), l0]), ok_bind,
    wr_ok (by omega), ok_bind]
  have f0 : writeAt (writeAt r0 0 (noiseRow (sqStream s0 5) 0 (4 * 42))) SHAKE128_RATE (noiseRow (sqStream s0 5) 168 (4 * 22)) =
      noiseRow (sqStream s0 5) 0 256 := by
    have := writeAt_concat r0 (noiseRow (sqStream s0 5) 0 (4 * 42)) (noiseRow (sqStream s0 5) 168 (4 * 22)) (by simp [l0])
    rw [length_noiseRow] at this
    rw [show SHAKE128_RATE = 4 * 42 from rfl, this]
    exact noiseRow_append _ 0 168 88
  rw [f0]
  obtain ⟨b3, e3, lb3, w3⟩ := shiftBuf_ok 88 (by omega) w2 (by omega)
  rw [e3, ok_bind, rd_ok [] (by simp; omega), ok_bind]
  have l1 : ((r.set 0 (noiseRow (sqStream s0 5) 0 256)).getD 1 []).length = 256 := by
    rw [getD_set, if_neg (by omega)]; exact hr2 1 (by omega)
  generalize (r.set 0 (noiseRow (sqStream s0 5) 0 256)).getD 1 [] = r1 at l1 ⊢
  obtain ⟨⟨b4, s4⟩, e4, lb4, w4, q4⟩ := q2.squeeze (M := 5) w3 (by omega) (by omega) (by omega)
  rw [show (168 - 88 : Nat) = 80 from rfl] at e4 w4
  rw [e4, ok_bind]
  simp only at lb4 w4 q4 ⊢
  rw [cbd_m0 0 _ 62 b4 _ 256 w4 (by omega) (by rw [l1]; omega), ok_bind]
  obtain ⟨⟨b5, s5⟩, e5, lb5, w5, q5⟩ := q4.squeeze (M := 5) (Win.nil b4 (sqStream s0 5) 504) (by omega) (by omega) (by omega)
  rw [e5, ok_bind]
  simp only at lb5 w5 q5 ⊢
  rw [cbd_m0 248 _ 2 b5 _ 504 (w5.le (by omega)) (by omega) (by rw [length_writeAt _ _ _ (by simp; omega), l1]), ok_bind,
    wr_ok (by simp; omega), ok_bind]
  have f1 : writeAt (writeAt r1 0 (noiseRow (sqStream s0 5) 256 (4 * 62))) 248 (noiseRow (sqStream s0 5) 504 (4 * 2)) =
      noiseRow (sqStream s0 5) 256 256 := by
    have := writeAt_concat r1 (noiseRow (sqStream s0 5) 256 (4 * 62)) (noiseRow (sqStream s0 5) 504 (4 * 2)) (by simp [l1])
    rw [length_noiseRow] at this
    rw [show 248 = 4 * 62 from rfl, this]
    exact noiseRow_append _ 256 248 8
  rw [f1]
  obtain ⟨b6, e6, lb6, w6⟩ := shiftBuf_ok 8 (by omega) w5 (by omega)
  rw [e6, ok_bind, rd_ok [] (by simp; omega), ok_bind]
  have l2 : (((r.set 0 (noiseRow (sqStream s0 5) 0 256)).set 1 (noiseRow (sqStream s0 5) 256 256)).getD 2 []).length = 256 := by
    rw [getD_set, if_neg (by omega), getD_set, if_neg (by omega)]; exact hr2 2 (by omega)
  generalize ((r.set 0 (noiseRow (sqStream s0 5) 0 256)).set 1 (noiseRow (sqStream s0 5) 256 256)).getD 2 [] = r2 at l2 ⊢
  rw [cbd_m0 0 _ 40 b6 _ 512 w6 (by omega) (by rw [l2]; omega), ok_bind]
  obtain ⟨⟨b7, s7⟩, e7, lb7, w7, q7⟩ := q5.squeeze (M := 5) (Win.nil b6 (sqStream s0 5) 672) (by omega) (by omega) (by omega)
  rw [e7, ok_bind]
  simp only at lb7 w7 q7 ⊢
  rw [cbd_m0 160 _ 24 b7 _ 672 (w7.le (by omega)) (by omega) (by rw [length_writeAt _ _ _ (by simp; omega), l2]), ok_bind,
    wr_ok (by simp; omega)]
  have f2 : writeAt (writeAt r2 0 (noiseRow (sqStream s0 5) 512 (4 * 40))) 160 (noiseRow (sqStream s0 5) 672 (4 * 24)) =
      noiseRow (sqStream s0 5) 512 256 := by
    have := writeAt_concat r2 (noiseRow (sqStream s0 5) 512 (4 * 40)) (noiseRow (sqStream s0 5) 672 (4 * 24)) (by simp [l2])
    rw [length_noiseRow] at this
    rw [show 160 = 4 * 40 from rfl, this]
    exact noiseRow_append _ 512 160 96
  rw [f2]
  refine Ok.pure ⟨s0, hspec, ?_⟩
  exact set3 r hr1 _ _ _

/-- The secret vector of the specification, reduced modulo `q`. -/
theorem GenSecret_m0 (r : List (List (BitVec 16))) (hr : IsVec 3 r) (seed : List Byte) (off : Nat) (h : off + 32 ≤ seed.length) :
    GenSecret r seed off = .ok (ofV (L := 3) fun i k => genSecret saber ((seed.drop off).take 32) i k % 8192) := by
  obtain ⟨r', e, s0, hspec, rfl⟩ := GenSecret_rows r hr seed off h
  rw [e]
  have hb : Keccak.shake128 ((seed.drop off).take 32) 768 = (sqStream s0 5).take 768 := hspec 768 5 (by omega)
  have row : ∀ i, i < 3 → noiseRow (sqStream s0 5) (256 * i) 256 =
      ofP fun k => centredBinomial 8 ((Keccak.shake128 ((seed.drop off).take 32) 768).drop (i * 8 * 32)) k % 8192 := by
    intro i hi
    rw [← noiseRow_eq, hb, show i * 8 * 32 = 256 * i by omega]
    unfold noiseRow
    apply List.map_congr_left
    intro k hk
    have hk := List.mem_range.mp hk
    rw [getD_take _ _ _ _ (by omega)]
  have e0 := row 0 (by omega)
  have e1 := row 1 (by omega)
  have e2 := row 2 (by omega)
  rw [show 256 * 0 = 0 from rfl] at e0
  rw [show 256 * 1 = 256 from rfl] at e1
  rw [show 256 * 2 = 512 from rfl] at e2
  rw [e0, e1, e2]
  rfl

end Saber.M0
