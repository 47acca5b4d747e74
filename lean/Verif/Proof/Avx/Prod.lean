import Verif.Proof.Avx.Eval
/-!
# The products of the AVX2 multiplication
-/
namespace Saber.Avx
open Saber.Arm (LF LH LRH lval forceN forceN_eq)

def prodRow (off u c : Nat) : LF → LF
  | [] => []
  | (v, d) :: r => (off + (16 * u + v), c * d % 65536) :: prodRow off u c r

/-- The product of two linear forms; variable `off + 16 u + v` stands for the product of variables `u` and `v`. -/
def prodF (off : Nat) : LF → LF → LF
  | [], _ => []
  | (u, c) :: r, f => prodRow off u c f ++ prodF off r f

/-- The square of the evaluation at `t`. -/
def sqF (off t : Nat) : LF := prodF off (evalF t) (evalF t)

section
variable {V : Nat → Int} {ι : Type} {s : Finset ι} {P Q : ι → Nat → Int} {off : Nat}

theorem lval_prodRow (u c : Nat) (f : LF) (h : ∀ q ∈ f, V (off + (16 * u + q.1)) = ∑ x ∈ s, P x u * Q x q.1) :
    lval V (prodRow off u c f) ≡ ∑ x ∈ s, c * P x u * lval (Q x) f [ZMOD 65536] := by
  induction f with
  | nil => simp [prodRow, Arm.lval_nil]
  | cons q f ih =>
    obtain ⟨v, d⟩ := q
    rw [prodRow, Arm.lval_cons]
    have e : ∑ x ∈ s, c * P x u * lval (Q x) ((v, d) :: f) = (c * d : Nat) * V (off + (16 * u + v)) + ∑ x ∈ s, c * P x u * lval (Q x) f := by
      rw [h (v, d) (List.mem_cons_self ..), Finset.mul_sum, ← Finset.sum_add_distrib]
      refine Finset.sum_congr rfl fun x _ => ?_
      rw [Arm.lval_cons]
      push_cast
      ring
    rw [e]
    exact ((Arm.mod_natCast (c * d)).mul_right _).add (ih fun q hq => h q (List.mem_cons_of_mem _ hq))

theorem lval_prodF (e f : LF) (h : ∀ p ∈ e, ∀ q ∈ f, V (off + (16 * p.1 + q.1)) = ∑ x ∈ s, P x p.1 * Q x q.1) :
    lval V (prodF off e f) ≡ ∑ x ∈ s, lval (P x) e * lval (Q x) f [ZMOD 65536] := by
  induction e with
  | nil => simp [prodF, Arm.lval_nil]
  | cons p e ih =>
    obtain ⟨u, c⟩ := p
    rw [prodF, lval_append]
    refine ((lval_prodRow u c f (h (u, c) (List.mem_cons_self ..))).add (ih fun p hp => h p (List.mem_cons_of_mem _ hp))).trans
      (Arm.ModEq.of_eq ?_)
    rw [← Finset.sum_add_distrib]
    refine Finset.sum_congr rfl fun x _ => ?_
    rw [Arm.lval_cons]
    ring
end

theorem lval_zero (l : LF) : lval (fun _ => 0) l = 0 := by
  induction l with
  | nil => rfl
  | cons p l ih => rw [Arm.lval_cons, ih]; simp

theorem lval_addV (V W : Nat → Int) (l : LF) : lval (fun n => V n + W n) l = lval V l + lval W l := by
  induction l with
  | nil => rfl
  | cons p l ih => rw [Arm.lval_cons, Arm.lval_cons, Arm.lval_cons, ih]; ring

theorem modEq_sum {ι : Type} {s : Finset ι} {f g : ι → Int} {m : Int} (h : ∀ x ∈ s, f x ≡ g x [ZMOD m]) : ∑ x ∈ s, f x ≡ ∑ x ∈ s, g x [ZMOD m] := by
  induction s using Finset.cons_induction with
  | empty => rfl
  | cons a s ha ih =>
    rw [Finset.sum_cons, Finset.sum_cons]
    exact (h a (Finset.mem_cons_self a s)).add (ih fun x hx => h x (Finset.mem_cons_of_mem hx))

/-- Coefficient `m` of the product of blocks `n / 16` of `a` and `n % 16` of `b`. -/
def blk (a b : List Vec) (m n : Nat) : Int :=
  ∑ x ∈ Finset.range 16, if x ≤ m ∧ m - x < 16 then lanev a x (n / 16) * lanev b (m - x) (n % 16) else 0

theorem blk31 (a b : List Vec) (n : Nat) : blk a b 31 n = 0 := by
  unfold blk
  refine Finset.sum_eq_zero fun x hx => ?_
  have := Finset.mem_range.mp hx
  rw [if_neg (by omega)]

theorem conv_blk {a b a' b' : List Vec} (ha : EvalOf a a') (hb : EvalOf b b') {g m l : Nat} (hg : g < 4) (hl : l < 16)
    (ht : 16 * g + l < 63) : conv (a'.drop (16 * g)) (b'.drop (16 * g)) m l ≡ lval (blk a b m) (sqF 0 (16 * g + l)) [ZMOD 65536] := by
  have hv := evalF_vars _ ht
  refine Int.ModEq.trans ?_ (lval_prodF (V := blk a b m) (s := (Finset.range 16).filter fun x => x ≤ m ∧ m - x < 16)
    (P := lanev a) (Q := fun x => lanev b (m - x)) (off := 0) _ _ ?_).symm
  · rw [conv, Finset.sum_filter]
    refine modEq_sum fun x hx => ?_
    have hx := Finset.mem_range.mp hx
    split
    · rename_i h
      rw [el_drop, el_drop]
      exact (ha.2 g x l hg hx hl ht).mul (hb.2 g (m - x) l hg h.2 hl ht)
    · rfl
  · intro p hp q hq
    have hp := varsLt_mem hv hp
    have hq := varsLt_mem hv hq
    rw [blk, Finset.sum_filter]
    refine Finset.sum_congr rfl fun x _ => ?_
    rw [show (0 + (16 * p.1 + q.1)) / 16 = p.1 by omega, show (0 + (16 * p.1 + q.1)) % 16 = q.1 by omega]

/-- The array `c` holds the products of the evaluations, for `V m n` coefficient `m` of the products of blocks. -/
def Products (V : Nat → Nat → Int) (c : List Vec) : Prop := c.length = 128 ∧ ∀ g m l, g < 4 → m < 32 → l < 16 → 16 * g + l < 63 →
  ((el c (32 * g + m) l).toNat : Int) ≡ lval (V m) (sqF 0 (16 * g + l)) [ZMOD 65536]

/-- One schoolbook multiplication on a part of the arrays. -/
theorem scm_slice {acc : Bool} {body : List Stmt} (hok : scmOk acc body = true) {a b c : List Vec} (ha : a.length = 64) (hb : b.length = 64)
    (hc : c.length = 128) {g : Nat} (hg : g < 4) : ∃ c', (onSlice c (32 * g) fun c => do
      let r ← run 17 [a.drop (16 * g), b.drop (16 * g), c] body
      rd r 2) = .ok c' ∧ c'.length = 128 ∧ (∀ m l, m < 32 → l < 16 →
      ((el c' (32 * g + m) l).toNat : Int) ≡ conv (a.drop (16 * g)) (b.drop (16 * g)) m l +
        if acc = true ∧ m < 31 then ((el c (32 * g + m) l).toNat : Int) else 0 [ZMOD 65536]) ∧
      ∀ i l, i < 32 * g ∨ 32 * (g + 1) ≤ i → el c' i l = el c i l := by
  obtain ⟨d, h1, h2, h3⟩ := scm_spec hok (a := a.drop (16 * g)) (b := b.drop (16 * g)) (c := c.drop (32 * g))
    (by rw [List.length_drop]; omega) (by rw [List.length_drop]; omega) (by rw [List.length_drop]; omega)
  have hlt : (c.take (32 * g)).length = 32 * g := by rw [List.length_take]; omega
  refine ⟨c.take (32 * g) ++ (d ++ (c.drop (32 * g)).drop 32), ?_, ?_, ?_, ?_⟩
  · rw [onSlice, h1]
    rfl
  · simp only [List.length_append, hlt, h2, List.length_drop]
    omega
  · intro m l hm hl
    rw [el_append_right (by omega), hlt, show 32 * g + m - 32 * g = m by omega, el_append_left (by omega), ← el_drop]
    exact h3 m l hm hl
  · rintro i l (hi | hi)
    · rw [el_append_left (by omega), el_take hi]
    · rw [el_append_right (by omega), hlt, el_append_right (by omega), h2, el_drop, el_drop]
      congr 1
      omega

theorem scm_all {acc : Bool} {body : List Stmt} (hok : scmOk acc body = true) {a b c : List Vec} (ha : a.length = 64) (hb : b.length = 64)
    (hc : c.length = 128) : ∃ c', (do
      let c ← onSlice c 0 fun c => do
        let r ← run 17 [a, b, c] body
        rd r 2
      let c ← onSlice c 32 fun c => do
        let r ← run 17 [a.drop 16, b.drop 16, c] body
        rd r 2
      let c ← onSlice c 64 fun c => do
        let r ← run 17 [a.drop 32, b.drop 32, c] body
        rd r 2
      onSlice c 96 fun c => do
        let r ← run 17 [a.drop 48, b.drop 48, c] body
        rd r 2) = .ok c' ∧ c'.length = 128 ∧ ∀ g m l, g < 4 → m < 32 → l < 16 →
      ((el c' (32 * g + m) l).toNat : Int) ≡ conv (a.drop (16 * g)) (b.drop (16 * g)) m l +
        if acc = true ∧ m < 31 then ((el c (32 * g + m) l).toNat : Int) else 0 [ZMOD 65536] := by
  obtain ⟨c0, h0, l0, e0, f0⟩ := scm_slice hok ha hb hc (g := 0) (by omega)
  obtain ⟨c1, h1, l1, e1, f1⟩ := scm_slice hok ha hb l0 (g := 1) (by omega)
  obtain ⟨c2, h2, l2, e2, f2⟩ := scm_slice hok ha hb l1 (g := 2) (by omega)
  obtain ⟨c3, h3, l3, e3, f3⟩ := scm_slice hok ha hb l2 (g := 3) (by omega)
  refine ⟨c3, ?_, l3, fun g m l hg hm hl => ?_⟩
  · simp only [Nat.mul_zero, List.drop_zero, Nat.mul_one] at h0 h1 h2 h3
    rw [h0, ok_bind, h1, ok_bind, h2, ok_bind, h3]
  · have : g = 0 ∨ g = 1 ∨ g = 2 ∨ g = 3 := by omega
    rcases this with rfl | rfl | rfl | rfl
    · rw [f3 _ _ (.inl (by omega)), f2 _ _ (.inl (by omega)), f1 _ _ (.inl (by omega))]
      exact e0 m l hm hl
    · rw [f3 _ _ (.inl (by omega)), f2 _ _ (.inl (by omega))]
      have := e1 m l hm hl
      rwa [f0 _ _ (.inr (by omega))] at this
    · rw [f3 _ _ (.inl (by omega))]
      have := e2 m l hm hl
      rwa [f1 _ _ (.inr (by omega)), f0 _ _ (.inr (by omega))] at this
    · have := e3 m l hm hl
      rwa [f2 _ _ (.inr (by omega)), f1 _ _ (.inr (by omega)), f0 _ _ (.inr (by omega))] at this

/-- `toom_cook_4way_avx_n1` adds the products of the evaluations to `c`, or overwrites it with them if the last argument is zero. -/
theorem toom_cook_4way_avx_n1_spec {a b b' c : List Vec} (ha : a.length = 16) (hb : EvalOf b b') (hc : c.length = 128) (f : Nat)
    {V : Nat → Nat → Int} (hV : f ≠ 0 → Products V c) :
    ∃ c', toom_cook_4way_avx_n1 a b' c f = .ok c' ∧ Products (fun m n => blk a b m n + if f = 0 ∨ m = 31 then 0 else V m n) c' := by
  obtain ⟨x, w, h1, y, r, h2, h3, h4⟩ := eval_sound evalA_ok ha (length_uninitVecs 92 28) (length_uninitVecs 91 64)
  obtain ⟨a', h5, h6⟩ := evalOf_transposes h3 h4
  have hred : ∀ z, toom_cook_4way_avx_n1 a b' c f = z ↔ (if f = 0 then (do
      let c_bucket ← onSlice c 0 fun c => schoolbook_avx_new2 a' b' c
      let c_bucket ← onSlice c_bucket 32 fun c => schoolbook_avx_new2 (a'.drop 16) (b'.drop 16) c
      let c_bucket ← onSlice c_bucket 64 fun c => schoolbook_avx_new2 (a'.drop 32) (b'.drop 32) c
      onSlice c_bucket 96 fun c => schoolbook_avx_new2 (a'.drop 48) (b'.drop 48) c) else (do
      let c_bucket ← onSlice c 0 fun c => schoolbook_avx_new3_acc a' b' c
      let c_bucket ← onSlice c_bucket 32 fun c => schoolbook_avx_new3_acc (a'.drop 16) (b'.drop 16) c
      let c_bucket ← onSlice c_bucket 64 fun c => schoolbook_avx_new3_acc (a'.drop 32) (b'.drop 32) c
      onSlice c_bucket 96 fun c => schoolbook_avx_new3_acc (a'.drop 48) (b'.drop 48) c)) = z := by
    intro z
    rw [toom_cook_4way_avx_n1, h1, ok_bind, show rd [x, w] 1 = .ok w from rfl, ok_bind, batch_64coefficient_multiplications_new, h2, ok_bind,
      show rd [y, r] 1 = .ok r from rfl, ok_bind, h5, ok_bind]
  by_cases hf : f = 0
  · obtain ⟨c', h7, h8, h9⟩ := scm_all new2_ok h6.1 hb.1 hc
    refine ⟨c', (hred _).mpr (by rw [if_pos hf]; exact h7), h8, fun g m l hg hm hl ht => ?_⟩
    refine (h9 g m l hg hm hl).trans ?_
    simp only [hf, true_or, if_true, add_zero, Bool.false_eq_true, false_and, if_false]
    exact conv_blk h6 hb hg hl ht
  · obtain ⟨c', h7, h8, h9⟩ := scm_all acc_ok h6.1 hb.1 hc
    refine ⟨c', (hred _).mpr (by rw [if_neg hf]; exact h7), h8, fun g m l hg hm hl ht => ?_⟩
    refine (h9 g m l hg hm hl).trans ?_
    by_cases h31 : m = 31
    · subst h31
      simp only [or_true, if_true, add_zero, show ¬ (31 < 31) by omega, and_false, if_false]
      exact conv_blk h6 hb hg hl ht
    · simp only [hf, h31, or_self, if_false, show m < 31 by omega, and_self, if_true]
      rw [lval_addV]
      exact (conv_blk h6 hb hg hl ht).add ((hV hf).2 g m l hg hm hl ht)

end Saber.Avx
