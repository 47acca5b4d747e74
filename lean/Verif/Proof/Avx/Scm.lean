import Verif.Proof.Avx.Lin
import Mathlib.Algebra.BigOperators.Intervals
import Mathlib.Algebra.BigOperators.Fin
/-!
# The schoolbook multiplications of the AVX2 implementation
-/
namespace Saber.Avx
open Saber.Arm (LF LH LRH lval forceN forceN_eq)

/-- The products that contribute to coefficient `m`. -/
def convF (m : Nat) : Nat → LF
  | 0 => []
  | n + 1 => match Nat.ble (15 - n) m && Nat.blt (m - (15 - n)) 16 with
    | true => (16 * (15 - n) + (m - (15 - n)), 1) :: convF m n
    | false => convF m n

/-- The test of coefficient `m` of the result; `f` is the previous value. -/
def coefOk (m : Nat) (f : LF) : SH → Bool
  | .h (.lin k l) => Nat.beq k 16 && LF.eq l (convF m 16 ++ f)
  | .h (.c 0) => LF.eq [] (convF m 16 ++ f)
  | _ => false

def coefsOk (acc : Bool) : Nat → List SH → Bool
  | _, [] => true
  | m, x :: r => coefOk m (match acc && Nat.blt m 31 with
    | true => [(256 + m, 1)]
    | false => []) x && coefsOk acc (m + 1) r

def scmIn (acc : Bool) : List SH := (List.range 32).map fun m => match acc with
  | true => .h (.lin 16 [(256 + m, 1)])
  | false => .h .unk

def scmOk (acc : Bool) (body : List Stmt) : Bool :=
  match sexec vprod body (List.replicate 17 (.h .unk)) [(List.range 16).map SH.a, (List.range 16).map SH.b, scmIn acc] with
  | some [_, _, r] => Nat.beq r.length 32 && coefsOk acc 0 r
  | _ => false

theorem new2_ok : scmOk false Scm.new2 = true := by decide +kernel
theorem acc_ok : scmOk true Scm.acc = true := by decide +kernel

theorem coefsOk_get {acc : Bool} {k : Nat} {r : List SH} (h : coefsOk acc k r = true) {i : Nat} (hi : i < r.length) :
    ∃ x, r[i]? = some x ∧ coefOk (k + i) (match acc && Nat.blt (k + i) 31 with
      | true => [(256 + (k + i), 1)]
      | false => []) x = true := by
  induction r generalizing k i with
  | nil => cases hi
  | cons x r ih =>
    rw [coefsOk, Bool.and_eq_true] at h
    cases i with
    | zero => exact ⟨x, rfl, h.1⟩
    | succ i =>
      obtain ⟨y, h1, h2⟩ := ih h.2 (by simpa using hi)
      rw [show k + 1 + i = k + (i + 1) by omega] at h2
      exact ⟨y, h1, h2⟩

/-- Coefficient `m` of the product of the polynomials in lane `l`. -/
def conv (a b : List Vec) (m l : Nat) : Int :=
  ∑ x ∈ Finset.range 16, if x ≤ m ∧ m - x < 16 then ((el a x l).toNat : Int) * (el b (m - x) l).toNat else 0

theorem lval_convF (v : Nat → Int) (m n : Nat) (hn : n ≤ 16) :
    lval v (convF m n) = ∑ x ∈ Finset.range n, if 15 - x ≤ m ∧ m - (15 - x) < 16 then v (16 * (15 - x) + (m - (15 - x))) else 0 := by
  induction n with
  | zero => rfl
  | succ n ih =>
    rw [convF, Finset.sum_range_succ]
    split
    · rename_i h
      rw [Bool.and_eq_true, Nat.ble_eq, Nat.blt_eq] at h
      rw [Arm.lval_cons, ih (by omega), if_pos h]
      simp only [Nat.cast_one, one_mul]
      rw [add_comm]
    · rename_i h
      rw [if_neg, ih (by omega), add_zero]
      intro h'
      rw [Nat.ble_eq.mpr h'.1, Nat.blt_eq.mpr h'.2] at h
      cases h

theorem lval_append (v : Nat → Int) (a b : LF) : lval v (a ++ b) = lval v a + lval v b := by
  simp [lval]

theorem lval_conv {a b : List Vec} {v : Nat → Int} {l : Nat} (hv : ∀ i j, i < 16 → j < 16 → v (16 * i + j) = (el a i l).toNat * (el b j l).toNat)
    (m : Nat) : lval v (convF m 16) = conv a b m l := by
  rw [lval_convF v m 16 (le_refl _), ← Finset.sum_range_reflect, conv]
  refine Finset.sum_congr rfl fun x hx => ?_
  have hx := Finset.mem_range.mp hx
  rw [show 15 - (16 - 1 - x) = x by omega]
  split
  · rename_i h
    exact hv _ _ hx h.2
  · rfl

/-- The values of the variables in a schoolbook multiplication. -/
def scmVal (a b c : List Vec) (l n : Nat) : Int :=
  if n < 256 then ((el a (n / 16) l).toNat : Int) * (el b (n % 16) l).toNat else (el c (n - 256) l).toNat

theorem scmVal_ab (a b c : List Vec) (l i j : Nat) (hi : i < 16) (hj : j < 16) :
    scmVal a b c l (16 * i + j) = (el a i l).toNat * (el b j l).toNat := by
  rw [scmVal, if_pos (by omega), show (16 * i + j) / 16 = i by omega, show (16 * i + j) % 16 = j by omega]

theorem el_fin (M : List Vec) (i : Nat) (l : Fin 16) : (M.getD i fun _ => 0) l = el M i l.val := (lane_fin _ l).symm

theorem coefOk_sound {a b c : List Vec} {m : Nat} {f : LF} {x : Vec} {y : SH} (h : coefOk m f y = true) (hr : prodR a b (scmVal a b c) x y) (l : Fin 16) :
    ((x l).toNat : Int) ≡ conv a b m l.val + lval (scmVal a b c l.val) f [ZMOD 65536] := by
  have e : lval (scmVal a b c l.val) (convF m 16 ++ f) = conv a b m l.val + lval (scmVal a b c l.val) f := by
    rw [lval_append, lval_conv fun i j hi hj => scmVal_ab a b c l.val i j hi hj]
  unfold coefOk at h
  split at h
  · rename_i k g
    rw [Bool.and_eq_true] at h
    have := hr l
    rw [Nat.beq_eq.mp h.1, Arm.LF.eq_eq h.2] at this
    rw [← e]
    exact this.2
  · rw [← e, ← Arm.LF.eq_eq h]
    have : (x l).toNat = 0 := hr l
    rw [this]
    rfl
  · cases h

theorem scm_sim {acc : Bool} {body : List Stmt} (hok : scmOk acc body = true) {a b c : List Vec} (ha : a.length = 16) (hb : b.length = 16)
    (hc : c.length = 32) : ∃ r, (run 17 [a, b, c] body = .ok r ∧ r.length = 3) ∧ ∃ c', r[2]? = some c' ∧ c'.length = 32 ∧ ∀ m l, m < 32 → l < 16 →
      ((el c' m l).toNat : Int) ≡ conv a b m l + if acc = true ∧ m < 31 then ((el c m l).toNat : Int) else 0 [ZMOD 65536] := by
  unfold scmOk at hok
  split at hok
  · rename_i x1 x2 r hr
    rw [Bool.and_eq_true] at hok
    obtain ⟨t, h1, h2⟩ := run_sim (prodSim a b (scmVal a b c) fun l i j _ hi hj => scmVal_ab a b c l i j hi hj) 17 body (arrs := [a, b, c])
      (vs := List.replicate 17 (.h .unk)) (forall₂_replicate (length_uninitVecs 90 17) fun _ _ => trivial)
      (.cons (by
        rw [eq_range_map ha]
        exact forall₂_range_map fun i hi => ⟨hi, fun l => by rw [← eq_range_map ha]; exact el_fin a i l⟩) (.cons (by
        rw [eq_range_map hb]
        exact forall₂_range_map fun i hi => ⟨hi, fun l => by rw [← eq_range_map hb]; exact el_fin b i l⟩) (.cons (by
        conv => arg 2; rw [eq_range_map hc]
        refine forall₂_range_map fun i hi => ?_
        cases acc with
        | false => exact fun _ => trivial
        | true =>
          intro l
          refine ⟨le_refl _, Arm.ModEq.of_eq ?_⟩
          rw [Arm.lval_cons, Arm.lval_nil, el_fin, scmVal, if_neg (by simp), show 256 + i - 256 = i by omega]
          simp) .nil))) hr
    cases h2 with
    | cons _ h2 => cases h2 with
    | cons _ h2 => cases h2 with
    | cons h3 h2 =>
      cases h2
      have hlen := forall₂_length h3
      have hr32 : r.length = 32 := Nat.beq_eq.mp hok.1
      refine ⟨_, ⟨h1, rfl⟩, _, rfl, by rw [hlen, hr32], fun m l hm hl => ?_⟩
      obtain ⟨y, h4, h5⟩ := coefsOk_get hok.2 (i := m) (hr32.symm ▸ hm)
      rw [Nat.zero_add] at h5
      have := coefOk_sound h5 (forall₂_getD h3 h4) ⟨l, hl⟩
      rw [el_fin] at this
      refine this.trans (Arm.ModEq.of_eq (congrArg _ ?_))
      cases acc with
      | false => rfl
      | true =>
        by_cases h31 : m < 31
        · rw [Bool.true_and, Nat.blt_eq.mpr h31, if_pos ⟨rfl, h31⟩]
          rw [Arm.lval_cons, Arm.lval_nil, scmVal, if_neg (by simp), show 256 + m - 256 = m by omega]
          simp
        · rw [if_neg (fun h => h31 h.2), show m = 31 by omega]
          rfl
  · cases hok

/-- The schoolbook multiplication on the first 16 (32) vectors of arrays. -/
theorem scm_spec {acc : Bool} {body : List Stmt} (hok : scmOk acc body = true) {a b c : List Vec} (ha : 16 ≤ a.length) (hb : 16 ≤ b.length)
    (hc : 32 ≤ c.length) : ∃ c', (do
      let r ← run 17 [a, b, c] body
      rd r 2) = .ok (c' ++ c.drop 32) ∧ c'.length = 32 ∧ ∀ m l, m < 32 → l < 16 →
      ((el c' m l).toNat : Int) ≡ conv a b m l + if acc = true ∧ m < 31 then ((el c m l).toNat : Int) else 0 [ZMOD 65536] := by
  obtain ⟨r, ⟨h1, hl⟩, c', h2, h3, h4⟩ := scm_sim hok (a := a.take 16) (b := b.take 16) (c := c.take 32) (by rw [List.length_take]; omega)
    (by rw [List.length_take]; omega) (by rw [List.length_take]; omega)
  have h5 := run_ext (as := [a.take 16, b.take 16, c.take 32]) (rs := [a.drop 16, b.drop 16, c.drop 32]) rfl h1
  simp only [ext, List.zipWith_cons_cons, List.zipWith_nil_left, List.take_append_drop] at h5
  refine ⟨c', ?_, h3, fun m l hm hl => ?_⟩
  · rw [h5, ok_bind, rd, List.getElem?_zipWith, h2]
    rfl
  · rw [show conv a b m l = conv (a.take 16) (b.take 16) m l by
        unfold conv
        refine Finset.sum_congr rfl fun x hx => ?_
        have hx := Finset.mem_range.mp hx
        split
        · rename_i h
          rw [el_take hx, el_take h.2]
        · rfl]
    have := h4 m l hm hl
    rwa [el_take hm] at this

end Saber.Avx
