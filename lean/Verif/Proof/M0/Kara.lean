import Verif.Proof.M0.Phases
/-!
# The in-place Karatsuba routine adds a product
-/
namespace Saber.M0
open Saber Polynomial

/-- `leaf` adds the product of two arrays of `n` elements to an array of `2n - 1` elements whose last `n - 1` elements are 0
(or ends in an undefined behaviour of the kind `E`). -/
def LeafSpec (E : UB → Prop) (n : Nat) (leaf : Leaf) : Prop :=
  ∀ a ao c co d o, ao + n ≤ a.length → co + n ≤ c.length → o + (2 * n - 1) ≤ d.length → V d o n (n - 1) (fun _ => 0) →
    OkE E (leaf a ao c co d o) fun d' => Fr o (2 * n - 1) d d' ∧
      V d' o 0 n (fun j => d.getD (o + j) 0 + (S a ao n * S c co n).coeff j) ∧
      V d' o n (n - 1) (fun j => (S a ao n * S c co n).coeff (n + j))

theorem OkE.bind2 {α β γ : Type} {E : UB → Prop} {m : CM α} {f : α → CM β} {g : β → CM γ} {P : β → Prop} {Q : γ → Prop}
    (h : OkE E (m >>= f) P) (hf : ∀ a, P a → OkE E (g a) Q) : OkE E (m >>= fun s => f s >>= g) Q := by
  rw [← bind_assoc]; exact h.bind hf

theorem OkE.bind3 {α β γ δ : Type} {E : UB → Prop} {m : CM α} {f : α → CM β} {g : β → CM γ} {g' : γ → CM δ}
    {P : γ → Prop} {Q : δ → Prop}
    (h : OkE E (m >>= fun s => f s >>= g) P) (hf : ∀ a, P a → OkE E (g' a) Q) :
    OkE E (m >>= fun s => f s >>= fun s => g s >>= g') Q := by
  have := h.bind hf
  rw [bind_assoc] at this
  simpa only [bind_assoc] using this

/-- `F 0 + F 1 X + ... + F (n-1) X^(n-1)` -/
noncomputable def Q (F : Nat → R16) (n : Nat) : R16[X] := ∑ i ∈ Finset.range n, C (F i) * X ^ i

theorem Q_add (F G : Nat → R16) (n : Nat) : Q (fun i => F i + G i) n = Q F n + Q G n := by
  simp only [Q, map_add, add_mul, Finset.sum_add_distrib]

theorem V.S_eq {d : List R16} {o off n p : Nat} {F : Nat → R16} (h : V d o off n F) (e : p = o + off) : S d p n = Q F n := by
  unfold S Q
  refine Finset.sum_congr rfl fun i hi => ?_
  rw [h.at i (Finset.mem_range.1 hi) (by omega)]

theorem LeafSpec.use {E : UB → Prop} {h : Nat} {leaf : Leaf} (L : LeafSpec E h leaf) {a c d : List R16} {ao co o p off off2 m : Nat}
    {PA PC : R16[X]} {F : Nat → R16} (ha : ao + h ≤ a.length) (hc : co + h ≤ c.length) (hd : o + m ≤ d.length)
    (hp : p = o + off) (hoff : off + (2 * h - 1) ≤ m) (h2 : off2 = off + h) (hA : S a ao h = PA) (hC : S c co h = PC)
    (hF : V d o off h F) (hz : V d o off2 (h - 1) (fun _ => 0)) :
    OkE E (leaf a ao c co d p) fun d' => Fr o m d d' ∧ V d' o off h (fun i => F i + (PA * PC).coeff i) ∧
      V d' o off2 (h - 1) (fun i => (PA * PC).coeff (h + i)) ∧
      (∀ off' n' G, V d o off' n' G → off' + n' ≤ off ∨ off + (2 * h - 1) ≤ off' → V d' o off' n' G) := by
  refine (L a ao c co d p ha hc (by omega) (fun i hi => hz.at i hi (by omega))).mono fun d' H => ?_
  obtain ⟨fr, v1, v2⟩ := H
  rw [hA, hC] at v1 v2
  refine ⟨⟨fr.1, fun j hj => fr.2 j (by omega)⟩, fun i hi => ?_, fun i hi => ?_, fun off' n' G hG hn i hi => ?_⟩
  · rw [v1.at i hi (by omega), hF.at i hi (by omega)]
  · rw [v2.at i hi (by omega)]
  · rw [fr.2 _ (by omega), hG i hi]

/-- Coefficients of a sum of seven shifted products, block by block. -/
theorem block_coeff {h : Nat} (M : Nat → R16[X]) (hM : ∀ m, Deg (M m) (2 * h - 1)) (n : Nat) (b i : Nat) (hi : i < h) (hb : b ≤ n) :
    (∑ m ∈ Finset.range n, X ^ (m * h) * M m).coeff (b * h + i)
      = (if b < n then (M b).coeff i else 0) + (if 0 < b then (M (b - 1)).coeff (h + i) else 0) := by
  have key : ∀ n, (∑ m ∈ Finset.range n, X ^ (m * h) * M m).coeff (b * h + i)
      = (if b < n then (M b).coeff i else 0) + (if 0 < b ∧ b - 1 < n then (M (b - 1)).coeff (h + i) else 0) := by
    intro n
    induction n with
    | zero => simp
    | succ n ih =>
      rw [Finset.sum_range_succ, coeff_add, ih, coeff_X_pow_mul']
      rcases Nat.lt_trichotomy b n with hbn | hbn | hbn
      · have e : ¬ n * h ≤ b * h + i := by
          have : (b + 1) * h ≤ n * h := Nat.mul_le_mul_right _ hbn
          rw [Nat.add_mul] at this; omega
        have q1 : b < n + 1 := by omega
        have q2 : b - 1 < n + 1 := by omega
        have q3 : b - 1 < n := by omega
        simp only [e, hbn, q1, q2, q3, if_true, if_false, add_zero]
      · subst hbn
        have q1 : b < b + 1 := by omega
        have q2 : b * h ≤ b * h + i := by omega
        have q3 : b - 1 < b + 1 := by omega
        by_cases h0 : 0 < b
        · have q4 : b - 1 < b := by omega
          simp only [q1, q2, q3, q4, h0, Nat.lt_irrefl, if_true, if_false, Nat.add_sub_cancel_left, true_and]
          ring
        · simp only [q1, q2, h0, Nat.lt_irrefl, if_true, if_false, Nat.add_sub_cancel_left, false_and]
          ring
      · have e0 : n * h ≤ b * h := Nat.mul_le_mul_right _ (by omega)
        have q1 : n * h ≤ b * h + i := by omega
        have q2 : ¬ b < n := by omega
        have q3 : ¬ b < n + 1 := by omega
        have q4 : ¬ b - 1 < n := by omega
        have q5 : 0 < b := by omega
        by_cases h1 : b = n + 1
        · subst h1
          simp only [q1, q2, q3, q5, if_true, if_false, zero_add, true_and, Nat.add_sub_cancel, Nat.lt_irrefl, Nat.lt_succ_self]
          rw [show (n + 1) * h + i - n * h = h + i by rw [Nat.add_mul]; omega]
        · have q6 : ¬ b - 1 < n + 1 := by omega
          have : (n + 2) * h ≤ b * h := Nat.mul_le_mul_right _ (by omega)
          rw [Nat.add_mul] at this
          simp only [q1, q2, q3, q4, q6, if_true, if_false, zero_add, and_false]
          exact hM n _ (by omega)
  rw [key n]
  by_cases h0 : 0 < b
  · have q : b - 1 < n := by omega
    simp only [h0, q, and_self]
  · simp only [h0, false_and]

theorem zc {h : Nat} {F G : Nat → R16} (hh : 1 ≤ h) : (Q F h * Q G h).coeff (h + (h - 1)) = 0 := by
  have hQ : ∀ F : Nat → R16, Deg (Q F h) h := by
    intro F k hk
    rw [Q, finsetSum_coeff]
    refine Finset.sum_eq_zero fun i hi => ?_
    rw [coeff_C_mul_X_pow, if_neg]
    have := Finset.mem_range.1 hi
    omega
  exact ((hQ F).mul (hQ G)) _ (by omega)

/-- The seven products of `(A0 + A1 Y + A2 Y^2 + A3 Y^3)(C0 + C1 Y + C2 Y^2 + C3 Y^3)`. -/
noncomputable def karaM (A0 A1 A2 A3 C0 C1 C2 C3 : R16[X]) : Nat → R16[X]
  | 0 => A0 * C0
  | 1 => A0 * C1 + A1 * C0
  | 2 => A0 * C2 + A1 * C1 + A2 * C0
  | 3 => A0 * C3 + A1 * C2 + A2 * C1 + A3 * C0
  | 4 => A1 * C3 + A2 * C2 + A3 * C1
  | 5 => A2 * C3 + A3 * C2
  | 6 => A3 * C3
  | _ => 0

set_option linter.unusedSimpArgs false in
set_option maxHeartbeats 4000000 in
theorem kara_spec {E : UB → Prop} {k h : Nat} (hk : k = 2 * h) (hh : 2 ≤ h) {leaf : Leaf} (L : LeafSpec E h leaf) :
    LeafSpec E (4 * h) (kara k leaf) := by
  intro a ao c co d o ha hc hd hz
  have hd : o + (8 * h - 1) ≤ d.length := by omega
  unfold kara
  dsimp only
  have A0 : S a ao h = Q (fun i => a.getD (ao + i) 0) h := rfl
  have A1 : S a (ao + k/2) h = Q (fun i => a.getD (ao + (k/2 + i)) 0) h := by simp only [S, Q, Nat.add_assoc]
  have A2 : S a (ao + k) h = Q (fun i => a.getD (ao + (k + i)) 0) h := by simp only [S, Q, Nat.add_assoc]
  have A3 : S a (ao + (k + k/2)) h = Q (fun i => a.getD (ao + (k + k/2 + i)) 0) h := by simp only [S, Q, Nat.add_assoc]
  have C0 : S c co h = Q (fun i => c.getD (co + i) 0) h := rfl
  have C1 : S c (co + k/2) h = Q (fun i => c.getD (co + (k/2 + i)) 0) h := by simp only [S, Q, Nat.add_assoc]
  have C2 : S c (co + k) h = Q (fun i => c.getD (co + (k + i)) 0) h := by simp only [S, Q, Nat.add_assoc]
  have C3 : S c (co + (k + k/2)) h = Q (fun i => c.getD (co + (k + k/2 + i)) 0) h := by simp only [S, Q, Nat.add_assoc]
  refine OkE.bind2 (OkE.of_ok (ph1 (s := ⟨d, uninit 16 (100 + k) (k / 2)⟩) hk hh ha hc (by exact hd) (by rw [length_uninit]; omega)
    (fun _ _ => rfl) (fun _ _ => rfl) (fun _ _ => rfl) (fun _ _ => rfl) (fun _ _ => rfl) (fun _ _ => rfl) (fun _ _ => rfl) (fun _ _ => rfl)
    (fun _ _ => rfl) (fun _ _ => rfl) (fun _ _ => rfl) (fun _ _ => rfl))) fun s1 H1 => ?_
  obtain ⟨r, t1, a0, a1, a2, a3, a4, a5, a6, a7, at1⟩ := H1
  dsimp only at r
  refine OkE.bind (L.use (m := 8*h-1) (off := k+k/2) (off2 := 2*k) (by rw [t1]; omega) (by rw [r.1]; omega) (by rw [r.1]; exact hd)
    rfl (by omega) (by omega) (at1.S_eq (by omega)) (a5.S_eq (by omega)) a3 a4) fun d2 H2 => ?_
  obtain ⟨r', b3, b4, keep⟩ := H2
  replace r := r.trans r'
  -- second product
  refine OkE.bind2 (OkE.of_ok (ph2 (s := ⟨d2, s1.t⟩) hk hh hc (by rw [r.1]; exact hd) t1 (fun _ _ => rfl) (fun _ _ => rfl)
    (keep _ _ _ a0 (by omega)) (keep _ _ _ a1 (by omega)) (keep _ _ _ a2 (by omega)) b3 b4 (keep _ _ _ a6 (by omega))
    (keep _ _ _ a7 (by omega)) (zc (by omega)))) fun s3 H3 => ?_
  clear keep a0 a1 a2 a3 a4 a5 a6 a7 at1 b3 b4 r'
  obtain ⟨r', t3, a0, a1, a2, a3, a4, a5, a6, a7, at3⟩ := H3
  replace r := r.trans r'
  refine OkE.bind (L.use (m := 8*h-1) (off := k) (off2 := k+k/2) (by rw [t3]; omega) (by rw [r.1]; omega) (by rw [r.1]; exact hd)
    rfl (by omega) (by omega) (at3.S_eq (by omega)) (a6.S_eq (by omega)) a2 (a3.mono (by omega))) fun d4 H4 => ?_
  clear r'
  obtain ⟨r', b2, b3, keep⟩ := H4
  replace r := r.trans r'
  -- third product
  refine OkE.bind2 (OkE.of_ok (ph3 (s := ⟨d4, s3.t⟩) hk hh hc (by rw [r.1]; exact hd) t3 (fun _ _ => rfl) (fun _ _ => rfl)
    (keep _ _ _ a0 (by omega)) (keep _ _ _ a1 (by omega)) b2 b3 (keep _ _ _ a4 (by omega)) (keep _ _ _ a5 (by omega))
    (keep _ _ _ a7 (by omega)) (by rw [zc (by omega), zc (by omega), sub_zero]))) fun s5 H5 => ?_
  clear keep a0 a1 a2 a3 a4 a5 a6 a7 at3 b2 b3 r'
  obtain ⟨r', t5, a0, a1, a2, a3, a4, a5, a7, at5⟩ := H5
  replace r := r.trans r'
  refine OkE.bind (L.use (m := 8*h-1) (off := 2*k) (off2 := 2*k+k/2) (by rw [t5]; omega) (by rw [r.1]; omega) (by rw [r.1]; exact hd)
    rfl (by omega) (by omega) (at5.S_eq (by omega)) (a7.S_eq (by omega)) a4 a5) fun d6 H6 => ?_
  clear r'
  obtain ⟨r', b4, b5, keep⟩ := H6
  replace r := r.trans r'
  -- fourth product
  refine OkE.bind3 (OkE.of_ok (ph4 (s := ⟨d6, s5.t⟩) hk hh ha hc (by rw [r.1]; exact hd) t5 (fun _ _ => rfl) (fun _ _ => rfl) (fun _ _ => rfl) (fun _ _ => rfl)
    (keep _ _ _ a0 (by omega)) (keep _ _ _ a1 (by omega)) (keep _ _ _ a2 (by omega)) (keep _ _ _ a3 (by omega)) b4 b5
    (zc (by omega)))) fun s7 H7 => ?_
  clear keep a0 a1 a2 a3 a4 a5 a7 at5 b4 b5 r'
  obtain ⟨r', t7, a0, a1, a2, a3, a4, a5, a6, a7, at7⟩ := H7
  replace r := r.trans r'
  refine OkE.bind (L.use (m := 8*h-1) (off := k/2) (off2 := k) (by rw [t7]; omega) (by rw [r.1]; omega) (by rw [r.1]; exact hd)
    rfl (by omega) (by omega) (at7.S_eq (by omega)) (a3.S_eq (by omega)) a1 a2) fun d8 H8 => ?_
  clear r'
  obtain ⟨r', b1, b2, keep⟩ := H8
  replace r := r.trans r'
  -- fifth product
  refine OkE.bind2 (OkE.of_ok (ph5 (s := ⟨d8, s7.t⟩) hk hh (by rw [r.1]; exact hd) t7
    (keep _ _ _ a0 (by omega)) b1 b2 (keep _ _ _ a4 (by omega)) (keep _ _ _ a5 (by omega)) (keep _ _ _ a6 (by omega))
    (keep _ _ _ a7 (by omega)) (zc (by omega)))) fun s9 H9 => ?_
  clear keep a0 a1 a2 a3 a4 a5 a6 a7 at7 b1 b2 r'
  obtain ⟨r', t9, a0, a1, a2, a3, a4, a5, a6, a7⟩ := H9
  replace r := r.trans r'
  refine OkE.bind (L.use (m := 8*h-1) (off := 0) (off2 := k/2) (by omega) (by omega) (by rw [r.1]; exact hd)
    rfl (by omega) (by omega) A0 C0 a0 (a1.mono (by omega))) fun d10 H10 => ?_
  clear r'
  obtain ⟨r', b0, b1, keep⟩ := H10
  replace r := r.trans r'
  -- sixth product
  refine OkE.bind2 (OkE.of_ok (ph6 (s := ⟨d10, s9.t⟩) hk hh (by rw [r.1]; exact hd) t9
    b0 b1 (keep _ _ _ a2 (by omega)) (keep _ _ _ a3 (by omega)) (keep _ _ _ a4 (by omega)) (keep _ _ _ a5 (by omega))
    (keep _ _ _ a6 (by omega)) (keep _ _ _ a7 (by omega)) (by rw [zc (by omega), zc (by omega), sub_zero]))) fun s11 H11 => ?_
  clear keep a0 a1 a2 a3 a4 a5 a6 a7 b0 b1 r'
  obtain ⟨r', t11, a0, a1, a2, a3, a4, a5, a6, a7⟩ := H11
  replace r := r.trans r'
  refine OkE.bind (L.use (m := 8*h-1) (off := k) (off2 := k+k/2) (by omega) (by omega) (by rw [r.1]; exact hd)
    rfl (by omega) (by omega) A1 C1 a2 a3) fun d12 H12 => ?_
  clear r'
  obtain ⟨r', b2, b3, keep⟩ := H12
  replace r := r.trans r'
  -- seventh product
  refine OkE.bind2 (OkE.of_ok (ph7 (s := ⟨d12, s11.t⟩) hk hh ha hc (by rw [r.1]; exact hd) t11 (fun _ _ => rfl) (fun _ _ => rfl) (fun _ _ => rfl) (fun _ _ => rfl)
    (keep _ _ _ a0 (by omega)) (keep _ _ _ a1 (by omega)) b2 b3 (keep _ _ _ a4 (by omega)) (keep _ _ _ a5 (by omega))
    (keep _ _ _ a6 (by omega)) (keep _ _ _ a7 (by omega)) (zc (by omega)) (zc (by omega)))) fun s13 H13 => ?_
  clear keep a0 a1 a2 a3 a4 a5 a6 a7 b2 b3 r'
  obtain ⟨r', t13, a0, a1, a2, a3, a4, a5, a6, a7, at13⟩ := H13
  replace r := r.trans r'
  refine OkE.bind (L.use (m := 8*h-1) (off := 2*k+k/2) (off2 := 3*k) (by rw [t13]; omega) (by rw [r.1]; omega) (by rw [r.1]; exact hd)
    rfl (by omega) (by omega) (at13.S_eq (by omega)) (a7.S_eq (by omega)) a5 a6) fun d14 H14 => ?_
  clear r'
  obtain ⟨r', b5, b6, keep⟩ := H14
  replace r := r.trans r'
  -- eighth product
  refine OkE.bind2 (OkE.of_ok (ph8 (s := ⟨d14, s13.t⟩) hk hh (by rw [r.1]; exact hd) t13
    (keep _ _ _ a0 (by omega)) (keep _ _ _ a1 (by omega)) (keep _ _ _ a2 (by omega)) (keep _ _ _ a3 (by omega))
    (keep _ _ _ a4 (by omega)) b5 b6 (zc (by omega)))) fun s15 H15 => ?_
  clear keep a0 a1 a2 a3 a4 a5 a6 a7 at13 b5 b6 r'
  obtain ⟨r', t15, a0, a1, a2, a3, a4, a5, a6, a7⟩ := H15
  replace r := r.trans r'
  refine OkE.bind (L.use (m := 8*h-1) (off := 2*k) (off2 := 2*k+k/2) (by omega) (by omega) (by rw [r.1]; exact hd)
    rfl (by omega) (by omega) A2 C2 a4 (a5.mono (by omega))) fun d16 H16 => ?_
  clear r'
  obtain ⟨r', b4, b5, keep⟩ := H16
  replace r := r.trans r'
  -- ninth product
  refine OkE.bind2 (OkE.of_ok (ph9 (s := ⟨d16, s15.t⟩) hk hh (by rw [r.1]; exact hd) t15
    (keep _ _ _ a0 (by omega)) (keep _ _ _ a1 (by omega)) (keep _ _ _ a2 (by omega)) (keep _ _ _ a3 (by omega))
    b4 b5 (keep _ _ _ a6 (by omega)) (keep _ _ _ a7 (by omega)) (by rw [zc (by omega), zc (by omega), sub_zero]))) fun s17 H17 => ?_
  clear keep a0 a1 a2 a3 a4 a5 a6 a7 b4 b5 r'
  obtain ⟨r', t17, a0, a1, a2, a3, a4, a5, a6, a7⟩ := H17
  replace r := r.trans r'
  refine OkE.bind (L.use (m := 8*h-1) (off := 3*k) (off2 := 3*k+k/2) (by omega) (by omega) (by rw [r.1]; exact hd)
    rfl (by omega) (by omega) A3 C3 a6 a7) fun d18 H18 => ?_
  clear r'
  obtain ⟨r', b6, b7, keep⟩ := H18
  replace r := r.trans r'
  refine OkE.bind2 (OkE.of_ok (ph10 (s := ⟨d18, s17.t⟩) hk hh (by rw [r.1]; exact hd) t17
    (keep _ _ _ a0 (by omega)) (keep _ _ _ a1 (by omega)) (keep _ _ _ a2 (by omega)) (keep _ _ _ a3 (by omega))
    (keep _ _ _ a4 (by omega)) (keep _ _ _ a5 (by omega)) b6 b7 (zc (by omega)))) fun s19 H19 => ?_
  clear keep a0 a1 a2 a3 a4 a5 a6 a7 b6 b7 r'
  obtain ⟨r', a0, a1, a2, a3, a4, a5, a6, a7⟩ := H19
  replace r := r.trans r'
  have dg : ∀ (x y : R16[X]), Deg x h → Deg y h → Deg (x * y) (2*h-1) := fun x y hx hy => (hx.mul hy).mono (by omega)
  have z : Deg (0 : R16[X]) (2*h-1) := fun _ _ => coeff_zero _
  have prod : ∀ b i, i < h → b ≤ 7 → (S a ao (4*h) * S c co (4*h)).coeff (b * h + i)
      = (if b < 7 then (karaM (S a ao h) (S a (ao + k/2) h) (S a (ao + k) h) (S a (ao + (k + k/2)) h) (S c co h) (S c (co + k/2) h)
          (S c (co + k) h) (S c (co + (k + k/2)) h) b).coeff i else 0)
        + (if 0 < b then (karaM (S a ao h) (S a (ao + k/2) h) (S a (ao + k) h) (S a (ao + (k + k/2)) h) (S c co h) (S c (co + k/2) h)
          (S c (co + k) h) (S c (co + (k + k/2)) h) (b-1)).coeff (h + i) else 0) := by
    intro b i hi hb
    rw [← block_coeff _ _ 7 b i hi hb]
    · congr 1
      rw [show 4*h = h + (h + (h + h)) by omega, S_add, S_add, S_add, S_add, S_add, S_add,
        show ao + k/2 = ao + h by omega, show ao + k = ao + h + h by omega, show ao + (k + k/2) = ao + h + h + h by omega,
        show co + k/2 = co + h by omega, show co + k = co + h + h by omega, show co + (k + k/2) = co + h + h + h by omega]
      simp only [Finset.sum_range_succ, Finset.sum_range_zero, karaM]
      ring
    · intro m
      unfold karaM
      split <;> first
        | exact z
        | (repeat' apply Deg.add) <;> exact dg _ _ (Deg.S _ _ _) (Deg.S _ _ _)
  have pos : ∀ {off n : Nat} {F : Nat → R16} {j : Nat} (i b : Nat), V s19.d o off n F → i < n → b * h = off → j = b * h + i →
      s19.d.getD (o + j) 0 = F i := fun i b hv hi e ej => hv.at i hi (by omega)
  rw [A0, A1, A2, A3, C0, C1, C2, C3] at prod
  refine OkE.pure ⟨⟨r.1, fun j hj => r.2 j (by omega)⟩, fun j hj => ?_, fun j hj => ?_⟩
  · have hq : j / h < 4 := Nat.div_lt_of_lt_mul (by omega)
    have hi : j % h < h := Nat.mod_lt _ (by omega)
    have ej : j = j / h * h + j % h := by rw [Nat.mul_comm]; exact (Nat.div_add_mod j h).symm
    have hb : j / h = 0 ∨ j / h = 1 ∨ j / h = 2 ∨ j / h = 3 := by
      revert hq; generalize j / h = q; omega
    have pr := prod (j / h) (j % h) hi (by omega)
    rw [← ej] at pr
    beta_reduce
    rw [pr, Nat.zero_add]
    generalize j / h = b at *
    generalize j % h = i at *
    subst ej
    clear pr prod
    rcases hb with rfl | rfl | rfl | rfl
    · rw [pos i 0 a0 hi (by omega) rfl, show o + (0 * h + i) = o + (0 + i) by omega]
      simp only [Nat.reduceLT, Nat.reduceSub, Nat.reduceAdd, if_true, if_false, karaM, coeff_add, Q_add, add_mul, mul_add, add_zero, zero_add]
    · rw [pos i 1 a1 hi (by omega) rfl, show o + (1 * h + i) = o + (k/2 + i) by omega]
      simp only [Nat.reduceLT, Nat.reduceSub, Nat.reduceAdd, if_true, if_false, karaM, coeff_add, Q_add, add_mul, mul_add, add_zero, zero_add]
      ring_nf
    · rw [pos i 2 a2 hi (by omega) rfl, show o + (2 * h + i) = o + (k + i) by omega]
      simp only [Nat.reduceLT, Nat.reduceSub, Nat.reduceAdd, if_true, if_false, karaM, coeff_add, Q_add, add_mul, mul_add, add_zero, zero_add]
      ring_nf
    · rw [pos i 3 a3 hi (by omega) rfl, show o + (3 * h + i) = o + (k+k/2 + i) by omega]
      simp only [Nat.reduceLT, Nat.reduceSub, Nat.reduceAdd, if_true, if_false, karaM, coeff_add, Q_add, add_mul, mul_add, add_zero, zero_add]
      ring_nf
  · have hq : j / h < 4 := Nat.div_lt_of_lt_mul (by omega)
    have hi : j % h < h := Nat.mod_lt _ (by omega)
    have ej : j = j / h * h + j % h := by rw [Nat.mul_comm]; exact (Nat.div_add_mod j h).symm
    have hb : j / h = 0 ∨ j / h = 1 ∨ j / h = 2 ∨ j / h = 3 := by
      revert hq; generalize j / h = q; omega
    have pr := prod (4 + j / h) (j % h) hi (by omega)
    rw [show (4 + j / h) * h + j % h = 4 * h + j by rw [Nat.add_mul]; omega] at pr
    beta_reduce
    rw [pr]
    generalize j / h = b at *
    generalize j % h = i at *
    subst ej
    clear pr prod
    rcases hb with rfl | rfl | rfl | rfl
    · rw [pos i 4 a4 hi (by omega) (by omega)]
      simp only [Nat.reduceLT, Nat.reduceSub, Nat.reduceAdd, if_true, if_false, karaM, coeff_add, Q_add, add_mul, mul_add, add_zero, zero_add]
      ring_nf
    · rw [pos i 5 a5 hi (by omega) (by omega)]
      simp only [Nat.reduceLT, Nat.reduceSub, Nat.reduceAdd, if_true, if_false, karaM, coeff_add, Q_add, add_mul, mul_add, add_zero, zero_add]
      ring_nf
    · rw [pos i 6 a6 hi (by omega) (by omega)]
      simp only [Nat.reduceLT, Nat.reduceSub, Nat.reduceAdd, if_true, if_false, karaM, coeff_add, Q_add, add_mul, mul_add, add_zero, zero_add]
      ring_nf
    · rw [pos i 7 a7 (by omega) (by omega) (by omega)]
      simp only [Nat.reduceLT, Nat.reduceSub, Nat.reduceAdd, if_true, if_false, karaM, coeff_add, Q_add, add_mul, mul_add, add_zero, zero_add]

end Saber.M0
