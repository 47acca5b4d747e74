import Verif.Proof.M0.GenSecret
import Verif.Proof.M0.Pack
import Verif.Model.M0.Indcpa
/-!
# `GenMatrix_poly` of the Cortex-M0 port
-/
namespace Saber.M0
open Saber Spec Spec.Keccak

variable [Spec.Keccak.Permutation] [StatePermute] [Permutes]

/-- The eight coefficients stored in the 13 bytes of `T` from position `p`. -/
def qblk (T : List Byte) (p : Nat) : List (BitVec 16) :=
  unpackqBlk (T.getD (p + 0) 0).toNat (T.getD (p + 1) 0).toNat (T.getD (p + 2) 0).toNat (T.getD (p + 3) 0).toNat (T.getD (p + 4) 0).toNat (T.getD (p + 5) 0).toNat (T.getD (p + 6) 0).toNat (T.getD (p + 7) 0).toNat (T.getD (p + 8) 0).toNat (T.getD (p + 9) 0).toNat (T.getD (p + 10) 0).toNat (T.getD (p + 11) 0).toNat (T.getD (p + 12) 0).toNat

omit [Permutation] [StatePermute] [Permutes] in
theorem length_qblk (T : List Byte) (p : Nat) : (qblk T p).length = 8 := rfl

/-- The coefficients stored in `n` groups of 13 bytes. -/
def qblks (T : List Byte) (p n : Nat) : List (BitVec 16) := (List.range n).flatMap fun j => qblk T (p + 13 * j)

omit [Permutation] [StatePermute] [Permutes] in
theorem length_qblks (T : List Byte) (p n : Nat) : (qblks T p n).length = 8 * n := length_flatMap_range 8 _ (fun _ => length_qblk _ _) n

omit [Permutation] [StatePermute] [Permutes] in
theorem qblks_append (T : List Byte) (p n m : Nat) : qblks T p n ++ qblks T (p + 13 * n) m = qblks T p (n + m) := by
  unfold qblks
  rw [List.range_add, List.flatMap_append, List.flatMap_map]
  congr 1
  apply List.flatMap_congr
  intro j _
  rw [show p + 13 * n + 13 * j = p + 13 * (n + j) by omega]

omit [Permutation] [StatePermute] [Permutes] in
theorem qblks_full (T : List Byte) (off : Nat) (h : off + 416 ≤ T.length) : qblks T off 32 = ofP (unpack 13 (T.drop off)) := by
  obtain ⟨z, hz⟩ : ∃ z : List (BitVec 16), z.length = 256 := ⟨List.replicate 256 0, List.length_replicate⟩
  have key := BS2POLq_ok T off z hz h
  unfold Saber.BS2POLq at key
  rw [show N / 8 = 32 from rfl, loop_blocks 8 (fun j => qblk T (off + 13 * j)) (fun _ => length_qblk _ _) 32 _ 0
    (by omega)] at key
  · rw [writeAt_full _ _ (by rw [hz]; exact (length_qblks T off 32).symm)] at key
    exact Except.ok.inj key
  · intro j a' hj ha
    rw [Nat.zero_add]
    simp only [rdN_ok, show off + 13 * j + 0 < T.length by omega, show off + 13 * j + 1 < T.length by omega, show off + 13 * j + 2 < T.length by omega, show off + 13 * j + 3 < T.length by omega, show off + 13 * j + 4 < T.length by omega, show off + 13 * j + 5 < T.length by omega, show off + 13 * j + 6 < T.length by omega, show off + 13 * j + 7 < T.length by omega, show off + 13 * j + 8 < T.length by omega, show off + 13 * j + 9 < T.length by omega, show off + 13 * j + 10 < T.length by omega, show off + 13 * j + 11 < T.length by omega, show off + 13 * j + 12 < T.length by omega, ok_bind]
    rfl

omit [Permutation] [StatePermute] [Permutes] in
theorem byte_bank_ok (bytes T : List Byte) (p : Nat) (pol : List (BitVec 16)) (start num : Nat) (hw : Win bytes T p (13 * num))
    (hb : 13 * num ≤ bytes.length) (hp : start + 8 * num ≤ pol.length) :
    byte_bank2pol_part bytes pol start num = .ok (writeAt pol start (qblks T p num)) := by
  unfold byte_bank2pol_part qblks
  apply loop_blocks 8 _ (fun _ => length_qblk _ _) num pol start hp
  intro j a' hj ha
  simp only [rdN_ok, show 13 * j + 0 < bytes.length by omega, show 13 * j + 1 < bytes.length by omega, show 13 * j + 2 < bytes.length by omega, show 13 * j + 3 < bytes.length by omega, show 13 * j + 4 < bytes.length by omega, show 13 * j + 5 < bytes.length by omega, show 13 * j + 6 < bytes.length by omega, show 13 * j + 7 < bytes.length by omega, show 13 * j + 8 < bytes.length by omega, show 13 * j + 9 < bytes.length by omega, show 13 * j + 10 < bytes.length by omega, show 13 * j + 11 < bytes.length by omega, show 13 * j + 12 < bytes.length by omega, ok_bind]
  rw [hw (13 * j + 0) (by omega), hw (13 * j + 1) (by omega), hw (13 * j + 2) (by omega), hw (13 * j + 3) (by omega), hw (13 * j + 4) (by omega), hw (13 * j + 5) (by omega), hw (13 * j + 6) (by omega), hw (13 * j + 7) (by omega), hw (13 * j + 8) (by omega), hw (13 * j + 9) (by omega), hw (13 * j + 10) (by omega), hw (13 * j + 11) (by omega), hw (13 * j + 12) (by omega)]
  rfl

/-- What the static variables hold before the call for polynomial `k`: the unread rest of the last block. -/
def Before (s0 : List (BitVec 64)) (k : Nat) (g : GS) : Prop :=
  ∃ Z, g.start = 0 ∧ 416 * k + g.left = 168 * Z ∧ g.left ≤ 167 ∧ g.buf.length = 280 ∧ Win g.buf (sqStream s0 23) (416 * k) g.left ∧
    SqState s0 Z g.s

theorem gmLoop_ok (s0 : List (BitVec 64)) (k : Nat) (hk : k ≤ 8) (a0 : List (BitVec 16)) (ha0 : a0.length = 256) :
    ∀ d m a g Z, 32 - m = d → m < 32 → g.start = 8 * m → 416 * k + 13 * m + g.left = 168 * Z →
      (m = 0 ∧ g.left ≤ 112 ∨ g.left ≤ 12) → g.buf.length = 280 → Win g.buf (sqStream s0 23) (416 * k + 13 * m) g.left →
      SqState s0 Z g.s → a = writeAt a0 0 (qblks (sqStream s0 23) (416 * k) m) →
      Ok (gmLoop a g) fun o => o.1 = qblks (sqStream s0 23) (416 * k) 32 ∧ Before s0 (k + 1) o.2 := by
  intro d
  induction d using Nat.strong_induction_on with
  | _ d ih =>
    intro m a g Z hd hm hst hpos hleft hbuf hw hs ha
    have hZ : Z < 23 := by omega
    have hla : a.length = 256 := by rw [ha, length_writeAt _ _ _ (by rw [length_qblks]; omega), ha0]
    rw [gmLoop]
    unfold gmStep
    obtain ⟨⟨b1, s1⟩, e1, lb1, w1, q1⟩ := hs.squeeze (M := 23) hw (by omega) hZ (by omega)
    simp only [e1, ok_bind, bind_assoc]
    simp only at lb1 w1 q1
    have hnum : (if (g.left + SHAKE128_RATE) / 13 * 8 + g.start > 255 then 32 - g.start / 8 else (g.left + SHAKE128_RATE) / 13) =
        min ((g.left + 168) / 13) (32 - m) := by
      rw [hst, show 8 * m / 8 = m by omega]
      show (if (g.left + 168) / 13 * 8 + 8 * m > 255 then 32 - m else (g.left + 168) / 13) = _
      split <;> omega
    rw [hnum]
    generalize hn : min ((g.left + 168) / 13) (32 - m) = num
    have hn1 : 13 * num ≤ g.left + 168 := by omega
    have hn2 : m + num ≤ 32 := by omega
    have hn3 : 0 < num := by omega
    rw [byte_bank_ok b1 _ _ a g.start num (w1.le (by omega)) (by omega) (by omega), ok_bind]
    have hl : g.left + SHAKE128_RATE - num * 13 = g.left + 168 - 13 * num := by
      show g.left + 168 - num * 13 = _
      omega
    rw [hl, Nat.mul_comm num 13]
    obtain ⟨b2, e2, lb2, w2⟩ := w1.shift (13 * num) (g.left + 168 - 13 * num) (by omega) (by omega)
    rw [e2, ok_bind]
    simp only [pure_eq_ok, ok_bind]
    have ea : writeAt a g.start (qblks (sqStream s0 23) (416 * k + 13 * m) num) = writeAt a0 0 (qblks (sqStream s0 23) (416 * k) (m + num)) := by
      have := writeAt_append a0 0 (qblks (sqStream s0 23) (416 * k) m) (qblks (sqStream s0 23) (416 * k + 13 * m) num)
        (by rw [length_qblks, length_qblks]; omega)
      rw [length_qblks, qblks_append, Nat.zero_add, ← ha, ← hst] at this
      exact this
    rw [ea]
    have hpos' : 416 * k + 13 * (m + num) + (g.left + 168 - 13 * num) = 168 * (Z + 1) := by omega
    rw [show 416 * k + 13 * m + 13 * num = 416 * k + 13 * (m + num) by omega] at w2
    by_cases hfin : m + num = 32
    · rw [dif_pos (by omega)]
      refine Ok.pure ⟨?_, Z + 1, rfl, ?_, ?_, by simp only; omega, ?_, q1⟩
      · simp only [hfin]
        rw [writeAt_full _ _ (by rw [length_qblks]; omega)]
      · simp only; omega
      · simp only; omega
      · simp only
        rw [hfin] at w2
        rwa [show 416 * (k + 1) = 416 * k + 13 * 32 by omega]
    · rw [dif_neg (by omega), dif_pos (by omega)]
      refine ih (32 - (m + num)) (by omega) (m + num) _ _ (Z + 1) rfl (by omega) (by simp only; omega) (by simp only; omega) ?_ (by simp only; omega)
        w2 q1 rfl
      right
      simp only
      omega

omit [StatePermute] [Permutes] in
theorem Before.left_le {s0 : List (BitVec 64)} {k : Nat} {g : GS} (h : Before s0 k g) (hk : k ≤ 8) : g.left ≤ 112 := by
  obtain ⟨Z, -, h1, h2, -⟩ := h
  interval_cases k <;> omega

/-- A later call continues with the next polynomial. -/
theorem GenMatrix_poly_next (s0 : List (BitVec 64)) (k n : Nat) (hk : k ≤ 8) (hn : n ≠ 0) (a : List (BitVec 16)) (ha : a.length = 256)
    (seed : List Byte) (off : Nat) (g : GS) (hg : Before s0 k g) :
    Ok (GenMatrix_poly a seed off n g) fun o => o.1 = ofP (unpack 13 ((sqStream s0 23).drop (416 * k))) ∧ Before s0 (k + 1) o.2 := by
  unfold GenMatrix_poly
  rw [if_neg hn]
  have hle := hg.left_le hk
  obtain ⟨Z, h1, h2, -, h4, h5, h6⟩ := hg
  rw [← qblks_full _ _ (by rw [length_sqStream]; omega)]
  exact gmLoop_ok s0 k hk a ha 32 0 a g Z rfl (by omega) h1 h2 (.inl ⟨rfl, hle⟩) h4 h5 h6 (by simp [qblks])

/-- The first call for a matrix. -/
theorem GenMatrix_poly_first (a : List (BitVec 16)) (ha : a.length = 256) (seed : List Byte) (off : Nat) (h : off + 32 ≤ seed.length)
    (g : GS) (hb : g.buf.length = 280) (hs : g.s.length = 25) :
    Ok (GenMatrix_poly a seed off 0 g) fun o => ∃ s0 : List (BitVec 64),
      (∀ n M, n ≤ 168 * M → Keccak.shake128 ((seed.drop off).take 32) n = (sqStream s0 M).take n) ∧
      o.1 = ofP (unpack 13 ((sqStream s0 23).drop (416 * 0))) ∧ Before s0 1 o.2 := by
  unfold GenMatrix_poly
  rw [if_pos rfl]
  obtain ⟨s0, e0, hs0, hspec⟩ := absorb_seed g.s hs seed off h
  rw [← bind_assoc, e0, ok_bind]
  refine (gmLoop_ok s0 0 (by omega) a ha 32 0 a ⟨g.buf, s0, 0, 0⟩ 0 rfl (by omega) rfl rfl (.inr (by simp)) hb (Win.nil _ _ _) ⟨hs0, rfl⟩ (by simp [qblks])).mono ?_
  rintro o ⟨h1, h2⟩
  refine ⟨s0, hspec, ?_, h2⟩
  rw [h1, qblks_full _ _ (by rw [length_sqStream]; omega)]

end Saber.M0
