import Verif.Model.M0.PolyMulInt
import Verif.Proof.M0.PolyMul
/-!
# The Karatsuba routine when interrupt handlers change its scratch array
-/
namespace Saber.M0
open Saber Polynomial

/-- The scratch array as the routine leaves it before the products 1, 2, 3, 4 and 7. -/
def scratch (h : Nat) (a : List R16) (ao : Nat) (c : List R16) (co : Nat) : Nat → List R16
  | 1 => (List.range h).map fun i => a.getD (ao + i) 0 + a.getD (ao + (2*h + i)) 0 + (a.getD (ao + (h + i)) 0 + a.getD (ao + (3*h + i)) 0)
  | 2 => (List.range h).map fun i => c.getD (co + i) 0 + c.getD (co + (2*h + i)) 0
  | 3 => (List.range h).map fun i => c.getD (co + (h + i)) 0 + c.getD (co + (3*h + i)) 0
  | 4 => (List.range h).map fun i => c.getD (co + i) 0 + c.getD (co + (h + i)) 0
  | _ => (List.range h).map fun i => c.getD (co + (2*h + i)) 0 + c.getD (co + (3*h + i)) 0

/-- The error that the handlers cause in product `n`: the difference of the scratch array times the other factor. -/
noncomputable def slip (intr : Interrupts) (h : Nat) (a : List R16) (ao : Nat) (c : List R16) (co : Nat) (n : Nat) : R16[X] :=
  (S (intr n (scratch h a ao c co n)) 0 h - S (scratch h a ao c co n) 0 h) *
    (match n with
      | 1 => S c co h + S c (co + h) h + S c (co + 2 * h) h + S c (co + 3 * h) h
      | 2 => S a ao h + S a (ao + 2 * h) h
      | 3 => S a (ao + h) h + S a (ao + 3 * h) h
      | 4 => S a ao h + S a (ao + h) h
      | _ => S a (ao + 2 * h) h + S a (ao + 3 * h) h)

theorem scratch_eq {t : List R16} {h : Nat} {F : Nat → R16} (ht : t.length = h) (hv : V t 0 0 h F) : t = (List.range h).map F := by
  apply List.ext_getElem
  · simp [ht]
  · intro i h1 h2
    have := hv i (by omega)
    rw [Nat.zero_add, Nat.zero_add, List.getD_eq_getElem _ _ h1] at this
    rw [this]; simp

theorem S_eq_Q (u : List R16) (h : Nat) : S u 0 h = Q (fun i => u.getD (0 + i) 0) h := rfl

theorem Deg.sub' {p q : R16[X]} {n : Nat} (hp : Deg p n) (hq : Deg q n) : Deg (p - q) n := fun i hi => by
  rw [coeff_sub, hp i hi, hq i hi, sub_zero]

theorem slip_deg (intr : Interrupts) {h : Nat} (hh : 1 ≤ h) (a : List R16) (ao : Nat) (c : List R16) (co n : Nat) :
    Deg (slip intr h a ao c co n) (2 * h - 1) := by
  unfold slip
  refine ((Deg.sub' (Deg.S _ _ _) (Deg.S _ _ _)).mul (n := h) ?_).mono (by omega)
  split <;> (repeat' apply Deg.add) <;> exact Deg.S _ _ _

/-- Blocks of the product with the errors of the interrupts. -/
noncomputable def karaN (e1 e2 e3 e4 e7 A0 A1 A2 A3 C0 C1 C2 C3 : R16[X]) : Nat → R16[X]
  | 0 => A0 * C0
  | 1 => A0 * C1 + A1 * C0 + e4
  | 2 => A0 * C2 + A1 * C1 + A2 * C0 + e2
  | 3 => A0 * C3 + A1 * C2 + A2 * C1 + A3 * C0 + (e1 - e2 - e3 - e4 - e7)
  | 4 => A1 * C3 + A2 * C2 + A3 * C1 + e3
  | 5 => A2 * C3 + A3 * C2 + e7
  | 6 => A3 * C3
  | _ => 0

theorem karaN_deg {e1 e2 e3 e4 e7 A0 A1 A2 A3 C0 C1 C2 C3 : R16[X]} {h : Nat} (hh : 1 ≤ h) (h1 : Deg e1 (2*h-1)) (h2 : Deg e2 (2*h-1))
    (h3 : Deg e3 (2*h-1)) (h4 : Deg e4 (2*h-1)) (h7 : Deg e7 (2*h-1)) (a0 : Deg A0 h) (a1 : Deg A1 h) (a2 : Deg A2 h) (a3 : Deg A3 h)
    (c0 : Deg C0 h) (c1 : Deg C1 h) (c2 : Deg C2 h) (c3 : Deg C3 h) (m : Nat) :
    Deg (karaN e1 e2 e3 e4 e7 A0 A1 A2 A3 C0 C1 C2 C3 m) (2*h-1) := by
  have dg : ∀ (x y : R16[X]), Deg x h → Deg y h → Deg (x * y) (2*h-1) := fun x y hx hy => (hx.mul hy).mono (by omega)
  have z : Deg (0 : R16[X]) (2*h-1) := fun _ _ => coeff_zero _
  unfold karaN
  split
  · exact dg _ _ a0 c0
  · exact ((dg _ _ a0 c1).add (dg _ _ a1 c0)).add h4
  · exact (((dg _ _ a0 c2).add (dg _ _ a1 c1)).add (dg _ _ a2 c0)).add h2
  · exact ((((dg _ _ a0 c3).add (dg _ _ a1 c2)).add (dg _ _ a2 c1)).add (dg _ _ a3 c0)).add
      (Deg.sub' (Deg.sub' (Deg.sub' (Deg.sub' h1 h2) h3) h4) h7)
  · exact (((dg _ _ a1 c3).add (dg _ _ a2 c2)).add (dg _ _ a3 c1)).add h3
  · exact ((dg _ _ a2 c3).add (dg _ _ a3 c2)).add h7
  · exact dg _ _ a3 c3
  · exact z

/-- What the routine adds: the product, and the errors of the interrupts. -/
noncomputable def total (intr : Interrupts) (h : Nat) (a : List R16) (ao : Nat) (c : List R16) (co : Nat) : R16[X] :=
  S a ao (4*h) * S c co (4*h) + X ^ (3*h) * slip intr h a ao c co 1 + (X ^ (2*h) - X ^ (3*h)) * slip intr h a ao c co 2 +
  (X ^ (4*h) - X ^ (3*h)) * slip intr h a ao c co 3 + (X ^ h - X ^ (3*h)) * slip intr h a ao c co 4 +
  (X ^ (5*h) - X ^ (3*h)) * slip intr h a ao c co 7

theorem Deg.X_pow_mul {p : R16[X]} {n : Nat} (hp : Deg p n) (m : Nat) : Deg (X ^ m * p) (m + n) := fun i hi => by
  rw [coeff_X_pow_mul', if_pos (by omega)]
  exact hp _ (by omega)

theorem total_deg (intr : Interrupts) {h : Nat} (hh : 1 ≤ h) (a : List R16) (ao : Nat) (c : List R16) (co : Nat) :
    Deg (total intr h a ao c co) (8 * h - 1) := by
  have e : ∀ n m, m ≤ 5 * h → Deg (X ^ m * slip intr h a ao c co n) (8 * h - 1) := fun n m hm =>
    (Deg.X_pow_mul (slip_deg intr hh a ao c co n) m).mono (by omega)
  unfold total
  refine ((((Deg.add (((Deg.S _ _ _).mul (Deg.S _ _ _)).mono (by omega)) (e 1 _ (by omega))).add ?_).add ?_).add ?_).add ?_ <;>
    (rw [sub_mul]; exact Deg.sub' (e _ _ (by omega)) (e _ _ (by omega)))

theorem Ok.with {α : Type} {m : CM α} {P R : α → Prop} (h : ∀ r, m = .ok r → R r) (hp : Ok m P) : Ok m fun r => P r ∧ R r := by
  obtain ⟨r, e, p⟩ := hp
  exact ⟨r, e, p, h r e⟩

/-- The function leaves the scratch array as it is. -/
def TKeep (f : KM → CM KM) : Prop := ∀ s s', f s = .ok s' → s'.t = s.t

theorem TKeep.loop {body : Nat → KM → CM KM} (h : ∀ i, TKeep (body i)) (n : Nat) : TKeep fun s => loop n s body := by
  induction n with
  | zero => intro s s' e; cases e; rfl
  | succ n ih =>
    intro s s' e
    dsimp only at e
    rw [loop_succ] at e
    cases e1 : Saber.loop n s body with
    | error => rw [e1] at e; cases e
    | ok s1 =>
      rw [e1] at e
      exact (h n s1 s' e).trans (ih s s1 e1)

theorem TKeep.seq {f g : KM → CM KM} (hf : TKeep f) (hg : TKeep g) {s s' : KM} (e : (f s >>= fun s => g s) = .ok s') : s'.t = s.t := by
  cases e1 : f s with
  | error => rw [e1] at e; cases e
  | ok s1 =>
    rw [e1] at e
    exact (hg s1 s' e).trans (hf s s1 e1)

theorem bind_ok {α β : Type} {m : CM α} {f : α → CM β} {r : β} (h : (m >>= f) = .ok r) : ∃ x, f x = .ok r := by
  cases m with
  | error => cases h
  | ok x => exact ⟨x, h⟩

macro "tk" : tactic => `(tactic| (intro s s' e; (repeat (obtain ⟨_, e⟩ := bind_ok e)); cases e; rfl))

theorem tkeep8 {k o n i : Nat} {s s' : KM} (e : (loop n s (kara8 k o) >>= fun s => kara8' k o i s) = .ok s') : s'.t = s.t :=
  TKeep.seq (f := fun s => loop n s (kara8 k o)) (TKeep.loop (fun i => by unfold kara8; tk) n) (g := fun s => kara8' k o i s) (by unfold kara8'; tk) e

theorem tkeep9 {k o n i : Nat} {s s' : KM} (e : (loop n s (kara9 k o) >>= fun s => kara9' k o i s) = .ok s') : s'.t = s.t :=
  TKeep.seq (f := fun s => loop n s (kara9 k o)) (TKeep.loop (fun i => by unfold kara9; tk) n) (g := fun s => kara9' k o i s) (by unfold kara9'; tk) e

theorem tkeep10 {k o n i : Nat} {s s' : KM} (e : (loop n s (kara10 k o) >>= fun s => kara10' k o i s) = .ok s') : s'.t = s.t :=
  TKeep.seq (f := fun s => loop n s (kara10 k o)) (TKeep.loop (fun i => by unfold kara10; tk) n) (g := fun s => kara10' k o i s) (by unfold kara10'; tk) e

set_option linter.unusedSimpArgs false in
set_option maxHeartbeats 4000000 in
theorem karaI_spec {E : UB → Prop} {k h : Nat} (hk : k = 2 * h) (hh : 2 ≤ h) {leaf : Leaf} (L : LeafSpec E h leaf) {intr : Interrupts}
    (hi : ∀ n t, t.length = h → (intr n t).length = h) {a c d t : List R16} {ao co o : Nat} (ha : ao + 4 * h ≤ a.length)
    (hc : co + 4 * h ≤ c.length) (hd : o + (8 * h - 1) ≤ d.length) (hz : V d o (4 * h) (4 * h - 1) fun _ => 0) (ht : t.length = h) :
    OkE E (karaI intr k leaf a ao c co d o t) fun r => (Fr o (8 * h - 1) d r.1 ∧
      V r.1 o 0 (4 * h) (fun j => d.getD (o + j) 0 + (total intr h a ao c co).coeff j) ∧
      V r.1 o (4 * h) (4 * h - 1) (fun j => (total intr h a ao c co).coeff (4 * h + j))) ∧
      r.2 = intr 9 (intr 8 (intr 7 (scratch h a ao c co 7))) := by
  have hz : V d o (4 * h) (4 * h - 1) fun _ => 0 := hz
  unfold karaI
  dsimp only
  have A0 : S a ao h = Q (fun i => a.getD (ao + i) 0) h := rfl
  have A1 : S a (ao + k/2) h = Q (fun i => a.getD (ao + (k/2 + i)) 0) h := by simp only [S, Q, Nat.add_assoc]
  have A2 : S a (ao + k) h = Q (fun i => a.getD (ao + (k + i)) 0) h := by simp only [S, Q, Nat.add_assoc]
  have A3 : S a (ao + (k + k/2)) h = Q (fun i => a.getD (ao + (k + k/2 + i)) 0) h := by simp only [S, Q, Nat.add_assoc]
  have C0 : S c co h = Q (fun i => c.getD (co + i) 0) h := rfl
  have C1 : S c (co + k/2) h = Q (fun i => c.getD (co + (k/2 + i)) 0) h := by simp only [S, Q, Nat.add_assoc]
  have C2 : S c (co + k) h = Q (fun i => c.getD (co + (k + i)) 0) h := by simp only [S, Q, Nat.add_assoc]
  have C3 : S c (co + (k + k/2)) h = Q (fun i => c.getD (co + (k + k/2 + i)) 0) h := by simp only [S, Q, Nat.add_assoc]
  refine OkE.bind2 (OkE.of_ok (ph1 (s := ⟨d, t⟩) hk hh ha hc (by exact hd) (by exact ht)
    (fun _ _ => rfl) (fun _ _ => rfl) (fun _ _ => rfl) (fun _ _ => rfl) (fun _ _ => rfl) (fun _ _ => rfl) (fun _ _ => rfl) (fun _ _ => rfl)
    (fun _ _ => rfl) (fun _ _ => rfl) (fun _ _ => rfl) (fun _ _ => rfl))) fun s1 H1 => ?_
  obtain ⟨r, t1, a0, a1, a2, a3, a4, a5, a6, a7, at1⟩ := H1
  dsimp only at r
  have E1 : s1.t = scratch h a ao c co 1 := (scratch_eq t1 at1).trans (by
    unfold scratch
    refine List.map_congr_left fun i _ => ?_
    simp only [show k / 2 + i = h + i by omega, show k + i = 2 * h + i by omega, show k + k / 2 + i = 3 * h + i by omega])
  have W1 := at1.S_eq (p := 0) rfl
  rw [E1] at W1
  refine OkE.bind (L.use (m := 8*h-1) (off := k+k/2) (off2 := 2*k) (by rw [hi 1 _ t1]; omega) (by rw [r.1]; omega) (by rw [r.1]; exact hd)
    rfl (by omega) (by omega) (S_eq_Q (intr 1 s1.t) h) (a5.S_eq (by omega)) a3 a4) fun d2 H2 => ?_
  obtain ⟨r', b3, b4, keep⟩ := H2
  replace r := r.trans r'
  -- second product
  refine OkE.bind2 (OkE.of_ok (ph2 (s := ⟨d2, intr 1 s1.t⟩) hk hh hc (by rw [r.1]; exact hd) (hi 1 _ t1) (fun _ _ => rfl) (fun _ _ => rfl)
    (keep _ _ _ a0 (by omega)) (keep _ _ _ a1 (by omega)) (keep _ _ _ a2 (by omega)) b3 b4 (keep _ _ _ a6 (by omega))
    (keep _ _ _ a7 (by omega)) (zc (by omega)))) fun s3 H3 => ?_
  clear keep a0 a1 a2 a3 a4 a5 a6 a7 at1 b3 b4 r'
  obtain ⟨r', t3, a0, a1, a2, a3, a4, a5, a6, a7, at3⟩ := H3
  replace r := r.trans r'
  have E2 : s3.t = scratch h a ao c co 2 := (scratch_eq t3 at3).trans (by
    unfold scratch
    refine List.map_congr_left fun i _ => ?_
    simp only [show k / 2 + i = h + i by omega, show k + i = 2 * h + i by omega, show k + k / 2 + i = 3 * h + i by omega])
  have W2 := at3.S_eq (p := 0) rfl
  rw [E2] at W2
  refine OkE.bind (L.use (m := 8*h-1) (off := k) (off2 := k+k/2) (by rw [hi 2 _ t3]; omega) (by rw [r.1]; omega) (by rw [r.1]; exact hd)
    rfl (by omega) (by omega) (S_eq_Q (intr 2 s3.t) h) (a6.S_eq (by omega)) a2 (a3.mono (by omega))) fun d4 H4 => ?_
  clear r'
  obtain ⟨r', b2, b3, keep⟩ := H4
  replace r := r.trans r'
  -- third product
  refine OkE.bind2 (OkE.of_ok (ph3 (s := ⟨d4, intr 2 s3.t⟩) hk hh hc (by rw [r.1]; exact hd) (hi 2 _ t3) (fun _ _ => rfl) (fun _ _ => rfl)
    (keep _ _ _ a0 (by omega)) (keep _ _ _ a1 (by omega)) b2 b3 (keep _ _ _ a4 (by omega)) (keep _ _ _ a5 (by omega))
    (keep _ _ _ a7 (by omega)) (by rw [zc (by omega), zc (by omega), sub_zero]))) fun s5 H5 => ?_
  clear keep a0 a1 a2 a3 a4 a5 a6 a7 at3 b2 b3 r'
  obtain ⟨r', t5, a0, a1, a2, a3, a4, a5, a7, at5⟩ := H5
  replace r := r.trans r'
  have E3 : s5.t = scratch h a ao c co 3 := (scratch_eq t5 at5).trans (by
    unfold scratch
    refine List.map_congr_left fun i _ => ?_
    simp only [show k / 2 + i = h + i by omega, show k + i = 2 * h + i by omega, show k + k / 2 + i = 3 * h + i by omega])
  have W3 := at5.S_eq (p := 0) rfl
  rw [E3] at W3
  refine OkE.bind (L.use (m := 8*h-1) (off := 2*k) (off2 := 2*k+k/2) (by rw [hi 3 _ t5]; omega) (by rw [r.1]; omega) (by rw [r.1]; exact hd)
    rfl (by omega) (by omega) (S_eq_Q (intr 3 s5.t) h) (a7.S_eq (by omega)) a4 a5) fun d6 H6 => ?_
  clear r'
  obtain ⟨r', b4, b5, keep⟩ := H6
  replace r := r.trans r'
  -- fourth product
  refine OkE.bind3 (OkE.of_ok (ph4 (s := ⟨d6, intr 3 s5.t⟩) hk hh ha hc (by rw [r.1]; exact hd) (hi 3 _ t5) (fun _ _ => rfl) (fun _ _ => rfl) (fun _ _ => rfl) (fun _ _ => rfl)
    (keep _ _ _ a0 (by omega)) (keep _ _ _ a1 (by omega)) (keep _ _ _ a2 (by omega)) (keep _ _ _ a3 (by omega)) b4 b5
    (zc (by omega)))) fun s7 H7 => ?_
  clear keep a0 a1 a2 a3 a4 a5 a7 at5 b4 b5 r'
  obtain ⟨r', t7, a0, a1, a2, a3, a4, a5, a6, a7, at7⟩ := H7
  replace r := r.trans r'
  have E4 : s7.t = scratch h a ao c co 4 := (scratch_eq t7 at7).trans (by
    unfold scratch
    refine List.map_congr_left fun i _ => ?_
    simp only [show k / 2 + i = h + i by omega, show k + i = 2 * h + i by omega, show k + k / 2 + i = 3 * h + i by omega])
  have W4 := at7.S_eq (p := 0) rfl
  rw [E4] at W4
  refine OkE.bind (L.use (m := 8*h-1) (off := k/2) (off2 := k) (by rw [hi 4 _ t7]; omega) (by rw [r.1]; omega) (by rw [r.1]; exact hd)
    rfl (by omega) (by omega) (S_eq_Q (intr 4 s7.t) h) (a3.S_eq (by omega)) a1 a2) fun d8 H8 => ?_
  clear r'
  obtain ⟨r', b1, b2, keep⟩ := H8
  replace r := r.trans r'
  -- fifth product
  refine OkE.bind2 (OkE.of_ok (ph5 (s := ⟨d8, intr 4 s7.t⟩) hk hh (by rw [r.1]; exact hd) (hi 4 _ t7)
    (keep _ _ _ a0 (by omega)) b1 b2 (keep _ _ _ a4 (by omega)) (keep _ _ _ a5 (by omega)) (keep _ _ _ a6 (by omega))
    (keep _ _ _ a7 (by omega)) (zc (by omega)))) fun s9 H9 => ?_
  clear keep a0 a1 a2 a3 a4 a5 a6 a7 at7 b1 b2 r'
  obtain ⟨r', t9, a0, a1, a2, a3, a4, a5, a6, a7⟩ := H9
  replace r := r.trans r'
  refine OkE.bind (L.use (m := 8*h-1) (off := 0) (off2 := k/2) (by omega) (by omega) (by rw [r.1]; exact hd)
    rfl (by omega) (by omega) A0 C0 a0 (a1.mono (by omega))) fun d10 H10 => ?_
  clear r'
  obtain ⟨r', b0, b1, keep⟩ := H10
  replace r := r.trans r'
  -- sixth product
  refine OkE.bind2 (OkE.of_ok (ph6 (s := ⟨d10, intr 5 s9.t⟩) hk hh (by rw [r.1]; exact hd) (hi 5 _ t9)
    b0 b1 (keep _ _ _ a2 (by omega)) (keep _ _ _ a3 (by omega)) (keep _ _ _ a4 (by omega)) (keep _ _ _ a5 (by omega))
    (keep _ _ _ a6 (by omega)) (keep _ _ _ a7 (by omega)) (by rw [zc (by omega), zc (by omega), sub_zero]))) fun s11 H11 => ?_
  clear keep a0 a1 a2 a3 a4 a5 a6 a7 b0 b1 r'
  obtain ⟨r', t11, a0, a1, a2, a3, a4, a5, a6, a7⟩ := H11
  replace r := r.trans r'
  refine OkE.bind (L.use (m := 8*h-1) (off := k) (off2 := k+k/2) (by omega) (by omega) (by rw [r.1]; exact hd)
    rfl (by omega) (by omega) A1 C1 a2 a3) fun d12 H12 => ?_
  clear r'
  obtain ⟨r', b2, b3, keep⟩ := H12
  replace r := r.trans r'
  -- seventh product
  refine OkE.bind2 (OkE.of_ok (ph7 (s := ⟨d12, intr 6 s11.t⟩) hk hh ha hc (by rw [r.1]; exact hd) (hi 6 _ t11) (fun _ _ => rfl) (fun _ _ => rfl) (fun _ _ => rfl) (fun _ _ => rfl)
    (keep _ _ _ a0 (by omega)) (keep _ _ _ a1 (by omega)) b2 b3 (keep _ _ _ a4 (by omega)) (keep _ _ _ a5 (by omega))
    (keep _ _ _ a6 (by omega)) (keep _ _ _ a7 (by omega)) (zc (by omega)) (zc (by omega)))) fun s13 H13 => ?_
  clear keep a0 a1 a2 a3 a4 a5 a6 a7 b2 b3 r'
  obtain ⟨r', t13, a0, a1, a2, a3, a4, a5, a6, a7, at13⟩ := H13
  replace r := r.trans r'
  have E7 : s13.t = scratch h a ao c co 7 := (scratch_eq t13 at13).trans (by
    unfold scratch
    refine List.map_congr_left fun i _ => ?_
    simp only [show k / 2 + i = h + i by omega, show k + i = 2 * h + i by omega, show k + k / 2 + i = 3 * h + i by omega])
  have W7 := at13.S_eq (p := 0) rfl
  rw [E7] at W7
  refine OkE.bind (L.use (m := 8*h-1) (off := 2*k+k/2) (off2 := 3*k) (by rw [hi 7 _ t13]; omega) (by rw [r.1]; omega) (by rw [r.1]; exact hd)
    rfl (by omega) (by omega) (S_eq_Q (intr 7 s13.t) h) (a7.S_eq (by omega)) a5 a6) fun d14 H14 => ?_
  clear r'
  obtain ⟨r', b5, b6, keep⟩ := H14
  replace r := r.trans r'
  -- eighth product
  refine OkE.bind2 (OkE.of_ok (Ok.with (fun s' e => tkeep8 e) (ph8 (s := ⟨d14, intr 7 s13.t⟩) hk hh (by rw [r.1]; exact hd) (hi 7 _ t13)
    (keep _ _ _ a0 (by omega)) (keep _ _ _ a1 (by omega)) (keep _ _ _ a2 (by omega)) (keep _ _ _ a3 (by omega))
    (keep _ _ _ a4 (by omega)) b5 b6 (zc (by omega))))) fun s15 H15 => ?_
  clear keep a0 a1 a2 a3 a4 a5 a6 a7 at13 b5 b6 r'
  obtain ⟨⟨r', t15, a0, a1, a2, a3, a4, a5, a6, a7⟩, T15⟩ := H15
  replace r := r.trans r'
  refine OkE.bind (L.use (m := 8*h-1) (off := 2*k) (off2 := 2*k+k/2) (by omega) (by omega) (by rw [r.1]; exact hd)
    rfl (by omega) (by omega) A2 C2 a4 (a5.mono (by omega))) fun d16 H16 => ?_
  clear r'
  obtain ⟨r', b4, b5, keep⟩ := H16
  replace r := r.trans r'
  -- ninth product
  refine OkE.bind2 (OkE.of_ok (Ok.with (fun s' e => tkeep9 e) (ph9 (s := ⟨d16, intr 8 s15.t⟩) hk hh (by rw [r.1]; exact hd) (hi 8 _ t15)
    (keep _ _ _ a0 (by omega)) (keep _ _ _ a1 (by omega)) (keep _ _ _ a2 (by omega)) (keep _ _ _ a3 (by omega))
    b4 b5 (keep _ _ _ a6 (by omega)) (keep _ _ _ a7 (by omega)) (by rw [zc (by omega), zc (by omega), sub_zero])))) fun s17 H17 => ?_
  clear keep a0 a1 a2 a3 a4 a5 a6 a7 b4 b5 r'
  obtain ⟨⟨r', t17, a0, a1, a2, a3, a4, a5, a6, a7⟩, T17⟩ := H17
  replace r := r.trans r'
  refine OkE.bind (L.use (m := 8*h-1) (off := 3*k) (off2 := 3*k+k/2) (by omega) (by omega) (by rw [r.1]; exact hd)
    rfl (by omega) (by omega) A3 C3 a6 a7) fun d18 H18 => ?_
  clear r'
  obtain ⟨r', b6, b7, keep⟩ := H18
  replace r := r.trans r'
  refine OkE.bind2 (OkE.of_ok (Ok.with (fun s' e => tkeep10 e) (ph10 (s := ⟨d18, intr 9 s17.t⟩) hk hh (by rw [r.1]; exact hd) (hi 9 _ t17)
    (keep _ _ _ a0 (by omega)) (keep _ _ _ a1 (by omega)) (keep _ _ _ a2 (by omega)) (keep _ _ _ a3 (by omega))
    (keep _ _ _ a4 (by omega)) (keep _ _ _ a5 (by omega)) b6 b7 (zc (by omega))))) fun s19 H19 => ?_
  clear keep a0 a1 a2 a3 a4 a5 a6 a7 b6 b7 r'
  obtain ⟨⟨r', a0, a1, a2, a3, a4, a5, a6, a7⟩, T19⟩ := H19
  replace r := r.trans r'
  have dg : ∀ (x y : R16[X]), Deg x h → Deg y h → Deg (x * y) (2*h-1) := fun x y hx hy => (hx.mul hy).mono (by omega)
  have z : Deg (0 : R16[X]) (2*h-1) := fun _ _ => coeff_zero _
  have prod : ∀ b i, i < h → b ≤ 7 → (total intr h a ao c co).coeff (b * h + i)
      = (if b < 7 then (karaN (slip intr h a ao c co 1) (slip intr h a ao c co 2) (slip intr h a ao c co 3) (slip intr h a ao c co 4) (slip intr h a ao c co 7) (S a ao h) (S a (ao + k/2) h) (S a (ao + k) h) (S a (ao + (k + k/2)) h) (S c co h) (S c (co + k/2) h)
          (S c (co + k) h) (S c (co + (k + k/2)) h) b).coeff i else 0)
        + (if 0 < b then (karaN (slip intr h a ao c co 1) (slip intr h a ao c co 2) (slip intr h a ao c co 3) (slip intr h a ao c co 4) (slip intr h a ao c co 7) (S a ao h) (S a (ao + k/2) h) (S a (ao + k) h) (S a (ao + (k + k/2)) h) (S c co h) (S c (co + k/2) h)
          (S c (co + k) h) (S c (co + (k + k/2)) h) (b-1)).coeff (h + i) else 0) := by
    intro b i hi hb
    rw [← block_coeff _ _ 7 b i hi hb]
    · congr 1
      rw [total, show 4*h = h + (h + (h + h)) by omega, S_add, S_add, S_add, S_add, S_add, S_add,
        show ao + k/2 = ao + h by omega, show ao + k = ao + h + h by omega, show ao + (k + k/2) = ao + h + h + h by omega,
        show co + k/2 = co + h by omega, show co + k = co + h + h by omega, show co + (k + k/2) = co + h + h + h by omega]
      simp only [Finset.sum_range_succ, Finset.sum_range_zero, karaN]
      ring
    · intro m
      exact karaN_deg (by omega) (slip_deg _ (by omega) _ _ _ _ _) (slip_deg _ (by omega) _ _ _ _ _) (slip_deg _ (by omega) _ _ _ _ _)
        (slip_deg _ (by omega) _ _ _ _ _) (slip_deg _ (by omega) _ _ _ _ _) (Deg.S _ _ _) (Deg.S _ _ _) (Deg.S _ _ _) (Deg.S _ _ _)
        (Deg.S _ _ _) (Deg.S _ _ _) (Deg.S _ _ _) (Deg.S _ _ _) m
  have pos : ∀ {off n : Nat} {F : Nat → R16} {j : Nat} (i b : Nat), V s19.d o off n F → i < n → b * h = off → j = b * h + i →
      s19.d.getD (o + j) 0 = F i := fun i b hv hi e ej => hv.at i hi (by omega)
  have he1 : slip intr h a ao c co 1 = (Q (fun i => (intr 1 s1.t).getD (0 + i) 0) h - Q (fun i => a.getD (ao + i) 0 + a.getD (ao + (k + i)) 0 + (a.getD (ao + (k/2 + i)) 0 + a.getD (ao + (k + k/2 + i)) 0)) h) *
      (S c co h + S c (co + k/2) h + S c (co + k) h + S c (co + (k + k/2)) h) := by
    rw [← S_eq_Q, E1, ← W1]
    unfold slip
    simp only [show k = 2 * h by omega, show 2 * h / 2 = h by omega, show 2 * h + h = 3 * h by omega]
  have he2 : slip intr h a ao c co 2 = (Q (fun i => (intr 2 s3.t).getD (0 + i) 0) h - Q (fun i => c.getD (co + i) 0 + c.getD (co + (k + i)) 0) h) *
      (S a ao h + S a (ao + k) h) := by
    rw [← S_eq_Q, E2, ← W2]
    unfold slip
    simp only [show k = 2 * h by omega, show 2 * h / 2 = h by omega, show 2 * h + h = 3 * h by omega]
  have he3 : slip intr h a ao c co 3 = (Q (fun i => (intr 3 s5.t).getD (0 + i) 0) h - Q (fun i => c.getD (co + (k/2 + i)) 0 + c.getD (co + (k + k/2 + i)) 0) h) *
      (S a (ao + k/2) h + S a (ao + (k + k/2)) h) := by
    rw [← S_eq_Q, E3, ← W3]
    unfold slip
    simp only [show k = 2 * h by omega, show 2 * h / 2 = h by omega, show 2 * h + h = 3 * h by omega]
  have he4 : slip intr h a ao c co 4 = (Q (fun i => (intr 4 s7.t).getD (0 + i) 0) h - Q (fun i => c.getD (co + i) 0 + c.getD (co + (k/2 + i)) 0) h) *
      (S a ao h + S a (ao + k/2) h) := by
    rw [← S_eq_Q, E4, ← W4]
    unfold slip
    simp only [show k = 2 * h by omega, show 2 * h / 2 = h by omega, show 2 * h + h = 3 * h by omega]
  have he7 : slip intr h a ao c co 7 = (Q (fun i => (intr 7 s13.t).getD (0 + i) 0) h - Q (fun i => c.getD (co + (k + i)) 0 + c.getD (co + (k + k/2 + i)) 0) h) *
      (S a (ao + k) h + S a (ao + (k + k/2)) h) := by
    rw [← S_eq_Q, E7, ← W7]
    unfold slip
    simp only [show k = 2 * h by omega, show 2 * h / 2 = h by omega, show 2 * h + h = 3 * h by omega]
  simp only [A0, A1, A2, A3, C0, C1, C2, C3] at he1 he2 he3 he4 he7
  have eT : s19.t = intr 9 (intr 8 (intr 7 (scratch h a ao c co 7))) := by rw [T19, T17, T15, E7]
  rw [A0, A1, A2, A3, C0, C1, C2, C3] at prod
  refine OkE.pure ⟨⟨⟨r.1, fun j hj => r.2 j (by omega)⟩, fun j hj => ?_, fun j hj => ?_⟩, eT⟩
  · have hq : j / h < 4 := Nat.div_lt_of_lt_mul (by omega)
    have hi : j % h < h := Nat.mod_lt _ (by omega)
    have ej : j = j / h * h + j % h := by rw [Nat.mul_comm]; exact (Nat.div_add_mod j h).symm
    have hb : j / h = 0 ∨ j / h = 1 ∨ j / h = 2 ∨ j / h = 3 := by
      revert hq; generalize j / h = q; omega
    have pr := prod (j / h) (j % h) hi (by omega)
    rw [← ej] at pr
    beta_reduce
    rw [pr, Nat.zero_add]
    generalize j / h = b at *
    generalize j % h = i at *
    subst ej
    clear pr prod
    rcases hb with rfl | rfl | rfl | rfl
    · rw [pos i 0 a0 hi (by omega) rfl, show o + (0 * h + i) = o + (0 + i) by omega]
      simp only [Nat.reduceLT, Nat.reduceSub, Nat.reduceAdd, if_true, if_false, karaN, he1, he2, he3, he4, he7, coeff_add, coeff_sub, sub_mul, Q_add, add_mul, mul_add, add_zero, zero_add]
    · rw [pos i 1 a1 hi (by omega) rfl, show o + (1 * h + i) = o + (k/2 + i) by omega]
      simp only [Nat.reduceLT, Nat.reduceSub, Nat.reduceAdd, if_true, if_false, karaN, he1, he2, he3, he4, he7, coeff_add, coeff_sub, sub_mul, Q_add, add_mul, mul_add, add_zero, zero_add]
      ring_nf
    · rw [pos i 2 a2 hi (by omega) rfl, show o + (2 * h + i) = o + (k + i) by omega]
      simp only [Nat.reduceLT, Nat.reduceSub, Nat.reduceAdd, if_true, if_false, karaN, he1, he2, he3, he4, he7, coeff_add, coeff_sub, sub_mul, Q_add, add_mul, mul_add, add_zero, zero_add]
      ring_nf
    · rw [pos i 3 a3 hi (by omega) rfl, show o + (3 * h + i) = o + (k+k/2 + i) by omega]
      simp only [Nat.reduceLT, Nat.reduceSub, Nat.reduceAdd, if_true, if_false, karaN, he1, he2, he3, he4, he7, coeff_add, coeff_sub, sub_mul, Q_add, add_mul, mul_add, add_zero, zero_add]
      ring_nf
  · have hq : j / h < 4 := Nat.div_lt_of_lt_mul (by omega)
    have hi : j % h < h := Nat.mod_lt _ (by omega)
    have ej : j = j / h * h + j % h := by rw [Nat.mul_comm]; exact (Nat.div_add_mod j h).symm
    have hb : j / h = 0 ∨ j / h = 1 ∨ j / h = 2 ∨ j / h = 3 := by
      revert hq; generalize j / h = q; omega
    have pr := prod (4 + j / h) (j % h) hi (by omega)
    rw [show (4 + j / h) * h + j % h = 4 * h + j by rw [Nat.add_mul]; omega] at pr
    beta_reduce
    rw [pr]
    generalize j / h = b at *
    generalize j % h = i at *
    subst ej
    clear pr prod
    rcases hb with rfl | rfl | rfl | rfl
    · rw [pos i 4 a4 hi (by omega) (by omega)]
      simp only [Nat.reduceLT, Nat.reduceSub, Nat.reduceAdd, if_true, if_false, karaN, he1, he2, he3, he4, he7, coeff_add, coeff_sub, sub_mul, Q_add, add_mul, mul_add, add_zero, zero_add]
      ring_nf
    · rw [pos i 5 a5 hi (by omega) (by omega)]
      simp only [Nat.reduceLT, Nat.reduceSub, Nat.reduceAdd, if_true, if_false, karaN, he1, he2, he3, he4, he7, coeff_add, coeff_sub, sub_mul, Q_add, add_mul, mul_add, add_zero, zero_add]
      ring_nf
    · rw [pos i 6 a6 hi (by omega) (by omega)]
      simp only [Nat.reduceLT, Nat.reduceSub, Nat.reduceAdd, if_true, if_false, karaN, he1, he2, he3, he4, he7, coeff_add, coeff_sub, sub_mul, Q_add, add_mul, mul_add, add_zero, zero_add]
      ring_nf
    · rw [pos i 7 a7 (by omega) (by omega) (by omega)]
      simp only [Nat.reduceLT, Nat.reduceSub, Nat.reduceAdd, if_true, if_false, karaN, he1, he2, he3, he4, he7, coeff_add, coeff_sub, sub_mul, Q_add, add_mul, mul_add, add_zero, zero_add]

end Saber.M0
