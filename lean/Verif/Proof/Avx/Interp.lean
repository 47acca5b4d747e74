import Verif.Proof.Avx.Prod
/-!
# The interpolation steps of the AVX2 multiplication
-/
namespace Saber.Avx
open Saber.Arm (LF LH LRH lval forceN forceN_eq)

/-- `c_bucket[i]` after the multiplications and the transposition. -/
def bucket (i : Nat) : LH := match Nat.beq (16 * (i / 32) + i % 16) 63 with
  | true => .unk
  | false => .lin 16 (sqF (256 * (i / 16 % 2)) (16 * (i / 32) + i % 16))

/-- Coefficients modulo `2^13`. -/
def red13 : LF → LF
  | [] => []
  | (v, c) :: l => Arm.consF v (c.mod 8192) (red13 l)

/-- The coefficient of a product of blocks in vector `w` of the result: the lower halves of products `u * v` count for `u + v = w`, the upper
halves for `u + v + 1 = w`, and they count negatively if the sum is `w + 16`. -/
def resC (w n : Nat) : Nat :=
  match Nat.beq (n / 16 % 16 + n % 16 + n / 256) w, Nat.beq (n / 16 % 16 + n % 16 + n / 256) (w + 16) with
  | true, _ => 1
  | false, true => 8191
  | false, false => 0

def resF (w : Nat) : Nat → LF
  | 0 => []
  | n + 1 => Arm.consF (511 - n) (resC w (511 - n)) (resF w n)

def resOk (w : Nat) : List LH → Bool
  | [] => true
  | .lin k l :: r => Nat.beq k 13 && (LF.eq (red13 l) (resF w 512) && resOk (w + 1) r)
  | _ :: _ => false

def forceB {α : Type} : List LH → (List LH → α) → α
  | [], k => k []
  | x :: l, k => x.force fun x => forceB l fun l => k (x :: l)

def karaOut : Option (List (List LH)) := forceB ((List.range 128).map bucket) fun b =>
  sexec vlin KInterpol.body (List.replicate 17 .unk) (b :: List.replicate 7 (List.replicate 8 .unk))

def interOk : Bool := match karaOut with
  | some (_ :: w) => match sexec vlin TInterpol.body (List.replicate 8 .unk) (w ++ [List.replicate 32 .unk, List.replicate 16 .unk]) with
    | some [_, _, _, _, _, _, _, _, r] => Nat.beq r.length 16 && resOk 0 r
    | _ => false
  | _ => false

theorem interOk_true : interOk = true := by decide +kernel

theorem forceB_eq {α : Type} (l : List LH) (k : List LH → α) : forceB l k = k l := by
  induction l generalizing k with
  | nil => rfl
  | cons x l ih => rw [forceB, Arm.LH.force_eq, ih]

theorem lval_shiftRow (v : Nat → Int) (off u c : Nat) (f : LF) : lval v (prodRow off u c f) = lval (fun n => v (off + n)) (prodRow 0 u c f) := by
  induction f with
  | nil => rfl
  | cons q f ih =>
    obtain ⟨w, d⟩ := q
    rw [prodRow, prodRow, Arm.lval_cons, Arm.lval_cons, ih, Nat.zero_add]

theorem lval_shift (v : Nat → Int) (off : Nat) (e f : LF) : lval v (prodF off e f) = lval (fun n => v (off + n)) (prodF 0 e f) := by
  induction e with
  | nil => rfl
  | cons p e ih =>
    obtain ⟨u, c⟩ := p
    rw [prodF, prodF, lval_append, lval_append, ih, lval_shiftRow]

theorem lval_shiftSq (v : Nat → Int) (off t : Nat) : lval v (sqF off t) = lval (fun n => v (off + n)) (sqF 0 t) := lval_shift v off _ _

theorem lval_red13 (v : Nat → Int) (l : LF) : lval v (red13 l) ≡ lval v l [ZMOD 8192] := by
  induction l with
  | nil => rfl
  | cons p l ih =>
    rw [red13, Arm.lval_consF, Arm.lval_cons]
    refine Int.ModEq.add (Int.ModEq.mul_right _ ?_) ih
    show ((p.2 % 8192 : Nat) : Int) ≡ p.2 [ZMOD 8192]
    rw [Int.natCast_mod]
    exact Int.mod_modEq _ _

theorem lval_resF (v : Nat → Int) (w n : Nat) (hn : n ≤ 512) : lval v (resF w n) = ∑ i ∈ Finset.range n, (resC w (511 - i) : Int) * v (511 - i) := by
  induction n with
  | zero => rfl
  | succ n ih => rw [resF, Arm.lval_consF, ih (by omega), Finset.sum_range_succ, add_comm]

theorem resOk_get {k : Nat} {r : List LH} (h : resOk k r = true) {i : Nat} (hi : i < r.length) :
    ∃ l, r[i]? = some (.lin 13 l) ∧ red13 l = resF (k + i) 512 := by
  induction r generalizing k i with
  | nil => cases hi
  | cons x r ih =>
    cases x with
    | lin m l =>
      rw [resOk, Bool.and_eq_true, Bool.and_eq_true] at h
      cases i with
      | zero => exact ⟨l, by rw [Nat.beq_eq.mp h.1]; rfl, Arm.LF.eq_eq h.2.1⟩
      | succ i =>
        obtain ⟨l', h1, h2⟩ := ih h.2.2 (i := i) (by simpa using hi)
        exact ⟨l', h1, by rw [h2, show k + 1 + i = k + (i + 1) by omega]⟩
    | c n => cases h
    | unk => cases h

/-- The values of the variables in the interpolation in lane `k`. -/
def interV (V : Nat → Nat → Int) (k n : Nat) : Int := if n < 256 then V k n else V (16 + k) (n - 256)

theorem lval_congr {v w : Nat → Int} {l : LF} (h : ∀ p ∈ l, v p.1 = w p.1) : lval v l = lval w l := by
  induction l with
  | nil => rfl
  | cons p l ih =>
    rw [Arm.lval_cons, Arm.lval_cons, h p (List.mem_cons_self ..), ih fun q hq => h q (List.mem_cons_of_mem _ hq)]

theorem sqF_vars (t : Nat) (ht : t < 63) : varsLt 256 (sqF 0 t) = true := by
  have : ∀ t < 63, varsLt 256 (sqF 0 t) = true := by decide +kernel
  exact this t ht

theorem interp_sound {V : Nat → Nat → Int} {c res : List Vec} (hc : Products V c) (hr : res.length = 16) :
    ∃ c' r, TC_interpol c res = .ok (c', r) ∧ c'.length = 128 ∧ r.length = 16 ∧ ∀ w k, w < 16 → k < 16 →
      ((el r w k).toNat : Int) ≡ ∑ n ∈ Finset.range 512, (resC w n : Int) * interV V k n [ZMOD 8192] := by
  obtain ⟨c', h1, h2, h3⟩ := transposes_spec (n := 8) hc.1
  have hok := interOk_true
  unfold interOk at hok
  split at hok
  · rename_i x w hk
    split at hok
    · rename_i y1 y2 y3 y4 y5 y6 y7 y8 r hi
      rw [Bool.and_eq_true] at hok
      unfold karaOut at hk
      have hk := (forceB_eq _ _).symm.trans hk
      have hu : ∀ t, List.Forall₂ (linSim (interV V)).R (uninitVecs t 8) (List.replicate 8 .unk) := fun t =>
        forall₂_replicate (length_uninitVecs t 8) (linR_unk _)
      obtain ⟨t1, h4, h5⟩ := run_sim (linSim (interV V)) 17 KInterpol.body
        (arrs := c' :: (List.range 7).map fun i => uninitVecs (94 + i) 8) (vs := List.replicate 17 .unk)
        (forall₂_replicate (length_uninitVecs 90 17) (linR_unk _)) (.cons (forall₂_lin h2 fun i hi k => by
          rw [BitVec.ofNat_toNat, BitVec.setWidth_eq]
          unfold bucket
          split
          · trivial
          · rename_i h63
            have h63 : ¬ (16 * (i / 32) + i % 16 = 63) := fun h => by rw [Nat.beq_eq.mpr h] at h63; cases h63
            have ht : 16 * (i / 32) + i % 16 < 63 := by omega
            refine ⟨le_refl _, ?_⟩
            have hcase : i / 16 % 2 = 0 ∨ i / 16 % 2 = 1 := by omega
            have hvars := sqF_vars _ ht
            have hik := h3 (i / 16) (i % 16) k.val (by omega) (by omega) k.isLt
            rw [show 16 * (i / 16) + i % 16 = i by omega] at hik
            rw [hik, lval_shiftSq, show (2 ^ 16 : Int) = 65536 by norm_num]
            rcases hcase with h0 | h0
            · rw [h0, show 16 * (i / 16) + k.val = 32 * (i / 32) + k.val by omega]
              refine (hc.2 (i / 32) k.val (i % 16) (by omega) (by omega) (by omega) ht).trans (Arm.ModEq.of_eq (lval_congr fun p hp => ?_))
              have := varsLt_mem hvars hp
              rw [interV, if_pos (by omega), show 256 * 0 + p.1 = p.1 by omega]
            · rw [h0, show 16 * (i / 16) + k.val = 32 * (i / 32) + (16 + k.val) by omega]
              refine (hc.2 (i / 32) (16 + k.val) (i % 16) (by omega) (by omega) (by omega) ht).trans (Arm.ModEq.of_eq (lval_congr fun p hp => ?_))
              have := varsLt_mem hvars hp
              rw [interV, if_neg (by omega), show 256 * 1 + p.1 - 256 = p.1 by omega]) (.cons (hu _) (.cons (hu _) (.cons (hu _) (.cons (hu _) (.cons (hu _) (.cons (hu _) (.cons (hu _) .nil)))))))) hk
      cases h5 with
      | cons h6 h5 =>
        rename_i d ws
        obtain ⟨t2, h7, h8⟩ := run_sim (linSim (interV V)) 8 TInterpol.body (arrs := ws ++ [uninitVecs 101 32, res]) (vs := List.replicate 8 .unk)
          (forall₂_replicate (length_uninitVecs 90 8) (linR_unk _))
          (List.rel_append h5 (.cons (forall₂_replicate (length_uninitVecs 101 32) (linR_unk _)) (.cons (forall₂_replicate hr (linR_unk _)) .nil))) hi
        cases h8 with
        | cons _ h8 => cases h8 with
        | cons _ h8 => cases h8 with
        | cons _ h8 => cases h8 with
        | cons _ h8 => cases h8 with
        | cons _ h8 => cases h8 with
        | cons _ h8 => cases h8 with
        | cons _ h8 => cases h8 with
        | cons _ h8 => cases h8 with
        | cons h9 h8 =>
          cases h8
          have hlen := forall₂_length h9
          have hr16 : r.length = 16 := Nat.beq_eq.mp hok.1
          refine ⟨c', _, ?_, by omega, by rw [hlen, hr16], fun w k hw hk => ?_⟩
          · rw [TC_interpol, h1, ok_bind, KARA_interpol, h4]
            simp only [ok_bind, List.tail_cons]
            rw [h7]
            rfl
          · obtain ⟨l, h10, h11⟩ := resOk_get hok.2 (i := w) (hr16.symm ▸ hw)
            have := (forall₂_getD h9 h10 ⟨k, hk⟩).2
            rw [el_fin] at this
            refine this.trans ((lval_red13 _ l).symm.trans (Arm.ModEq.of_eq ?_))
            rw [h11, Nat.zero_add, lval_resF _ _ _ (le_refl _), Finset.sum_range_reflect (fun n => (resC w n : Int) * interV V k n) 512]
    · cases hok
  · cases hok

end Saber.Avx
