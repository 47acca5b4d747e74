import Verif.Proof.Arm.Toom
import Verif.Proof.Arm.PSim
/-!
# The calls of `karatsuba_64x64` in `polymul_asm`
-/
namespace Saber.Arm
open Polynomial

/-! ### The variables -/

/-- The weights of an operand. -/
def pew (t m : Nat) : R16 := BitVec.ofNat 16 ((pvW t).getD m 0)

/-- An operand at evaluation point `t`. -/
noncomputable def opP (a : List R16) (t : Nat) : R16[X] :=
  C (pew t 0) * S a 0 64 + C (pew t 1) * S a 64 64 + C (pew t 2) * S a 128 64 + C (pew t 3) * S a 192 64

/-- The values of the variables for the inputs and the products. -/
noncomputable def vA (a b : List R16) (n : Nat) : Int :=
  if n < 256 then (a.getD n 0).toNat
  else if n < 512 then (b.getD (n - 256) 0).toNat
  else ((opP a ((n - 1024) / 128) * opP b ((n - 1024) / 128)).coeff ((n - 1024) % 128)).toNat

/-- The values of the variables for the first four shifts. -/
noncomputable def vB (a b : List R16) (n : Nat) : Int :=
  if n < 2048 then vA a b n
  else lval (vA a b) (qForm ((n - 2048) / 128) ((n - 2048) % 128)) % 4294967296 / 2 ^ qSh ((n - 2048) / 128)

/-- The values of all variables. -/
noncomputable def vC (a b : List R16) (n : Nat) : Int :=
  if n < 2560 then vB a b n
  else lval (vB a b) (qForm 4 (n - 2560)) % 4294967296 / 2 ^ qSh 4

theorem vC_lt {a b : List R16} {n : Nat} (h : n < 2048) : vC a b n = vA a b n := by
  rw [vC, if_pos (by omega), vB, if_pos h]

theorem vC_lt2 {a b : List R16} {n : Nat} (h : n < 2560) : vC a b n = vB a b n := if_pos h

theorem lval_congr {v w : Nat → Int} {l : LF} (h : ∀ p ∈ l, v p.1 = w p.1) : lval v l = lval w l := by
  unfold lval
  rw [List.map_congr_left fun p hp => by rw [h p hp]]

theorem pV_eq (t i : Nat) : pV t i = 1024 + 128 * t + i := rfl
theorem qV_eq (j i : Nat) : qV j i = 2048 + 128 * j + i := rfl

theorem vC_shifts (a b : List R16) : Shifts (vC a b) where
  prod n h1 h2 := by
    rw [vC_lt (by omega), vA, if_neg (by omega), if_neg (by omega)]
    refine ⟨by omega, ?_⟩
    have := ((opP a ((n - 1024) / 128) * opP b ((n - 1024) / 128)).coeff ((n - 1024) % 128)).isLt
    omega
  shr j i hj hi := by
    by_cases h4 : j < 4
    · have e : lval (vC a b) (qForm j i) = lval (vA a b) (qForm j i) := by
        refine lval_congr fun p hp => vC_lt ?_
        match j, h4 with
        | 0, _ => simp only [qForm, List.mem_cons, List.not_mem_nil, or_false] at hp; rcases hp with rfl | rfl <;> simp only [pV_eq] <;> omega
        | 1, _ =>
          simp only [qForm, List.mem_cons, List.not_mem_nil, or_false] at hp
          rcases hp with rfl | rfl | rfl | rfl <;> simp only [pV_eq] <;> omega
        | 2, _ => simp only [qForm, List.mem_cons, List.not_mem_nil, or_false] at hp; rcases hp with rfl | rfl <;> simp only [pV_eq] <;> omega
        | 3, _ => simp only [qForm, List.mem_cons, List.not_mem_nil, or_false] at hp; rcases hp with rfl | rfl <;> simp only [pV_eq] <;> omega
      rw [e, qV_eq, vC_lt2 (by omega), vB, if_neg (by omega), show (2048 + 128 * j + i - 2048) / 128 = j by omega,
        show (2048 + 128 * j + i - 2048) % 128 = i by omega]
    · have : j = 4 := by omega
      subst this
      have e : lval (vC a b) (qForm 4 i) = lval (vB a b) (qForm 4 i) := by
        refine lval_congr fun p hp => vC_lt2 ?_
        simp only [qForm, List.mem_cons, List.not_mem_nil, or_false] at hp
        rcases hp with rfl | rfl | rfl | rfl | rfl | rfl <;> simp only [pV_eq, qV_eq] <;> omega
      rw [e, qV_eq, vC, if_neg (by omega), show 2048 + 128 * 4 + i - 2560 = i by omega]

/-! ### The operands and the products -/

theorem pformOf_eq (s w : Nat) (l : List Nat) : pformOf s w l = formOf s w l := by
  induction l generalizing w with
  | nil => rfl
  | cons c l ih => rw [pformOf, formOf, ih]

theorem pvW_length : ∀ t < 7, (pvW t).length = 4 := by decide

/-- An operand as a polynomial. -/
theorem P64_opP {a : List R16} {v : Nat → Int} {base t : Nat} (ht : t < 7) {x : Nat → R16}
    (hv : ∀ n, n < 256 → u16 (v (base + n)) = a.getD n 0)
    (hx : ∀ i, i < 64 → ((x i).toNat : Int) ≡ lval v (pformOf 64 (base + i) (pvW t)) [ZMOD 65536]) : P64 x = opP a t := by
  unfold opP
  ext1 k
  rw [P64_coeff]
  simp only [coeff_add, coeff_C_mul, S_coeff]
  split
  · rename_i hk
    have := u16_modEq.mpr (hx k hk)
    rw [u16_toNat, pformOf_eq, u16_formOf, pvW_length t ht] at this
    rw [this]
    simp only [Finset.sum_range_succ, Finset.sum_range_zero, zero_add, Nat.add_assoc]
    rw [hv _ (by omega), hv _ (by omega), hv _ (by omega), hv _ (by omega)]
    simp only [pew, Nat.mul_zero, Nat.mul_one, Nat.add_zero]
    rw [Nat.add_comm k 64, Nat.add_comm k (64 * 2), Nat.add_comm k (64 * 3)]
  · simp

/-- The product of two operands. -/
theorem pprod_coeff {a b : List R16} {t : Nat} (ht : t < 7) {x y : Nat → R16}
    (hx : ∀ i, i < 64 → ((x i).toNat : Int) ≡ lval (vC a b) (pformOf 64 (0 + i) (pvW t)) [ZMOD 65536])
    (hy : ∀ i, i < 64 → ((y i).toNat : Int) ≡ lval (vC a b) (pformOf 64 (256 + i) (pvW t)) [ZMOD 65536]) (i : Nat) (hi : i < 128) :
    (((P64 y * P64 x).coeff i).toNat : Int) ≡ lval (vC a b) [(pV t i, 1)] [ZMOD 65536] := by
  rw [P64_opP (a := a) ht (fun n hn => by rw [Nat.zero_add, vC_lt (by omega), vA, if_pos hn, u16_toNat]) hx,
    P64_opP (a := b) ht (fun n hn => by
      rw [vC_lt (by omega), vA, if_neg (by omega), if_pos (by omega), u16_toNat, Nat.add_sub_cancel_left]) hy,
    lval_cons, lval_nil, pV_eq, vC_lt (by omega), vA, if_neg (by omega), if_neg (by omega),
    show (1024 + 128 * t + i - 1024) / 128 = t by omega, show (1024 + 128 * t + i - 1024) % 128 = i by omega, mul_comm (opP b t)]
  apply ModEq.of_eq
  push_cast
  ring

/-! ### Memory -/

theorem pwrs_rd {f : Nat → Cell PH} {o : Nat} (n : Nat) : ∀ (j i : Nat) (m m1 : KM PH), pwrs f o n j i m = some m1 →
    (∀ l, l < n → (KM.rd m o (i + l)).isSome) ∧
      ∀ o' i', KM.rd m1 o' i' = if o' = o ∧ i ≤ i' ∧ i' < i + n then some (f (j + (i' - i))) else KM.rd m o' i' := by
  induction n with
  | zero =>
    intro j i m m1 h
    simp only [pwrs, Option.some.injEq] at h
    subst h
    refine ⟨fun l hl => absurd hl (Nat.not_lt_zero l), fun o' i' => ?_⟩
    rw [if_neg (by omega)]
  | succ n ih =>
    intro j i m m1 h
    rw [pwrs] at h
    cases hw : KM.wrK m o i (f j) some with
    | none => simp [hw] at h
    | some m2 =>
      simp only [hw] at h
      obtain ⟨m2', e1, e2, e3⟩ := KM.wrK_rd m o i (f j) some m2 hw
      cases e1
      obtain ⟨h1, h2⟩ := ih _ _ _ _ h
      refine ⟨fun l hl => ?_, fun o' i' => ?_⟩
      · cases l with
        | zero => exact e2
        | succ l =>
          have := h1 l (by omega)
          rw [e3] at this
          rw [if_neg (by simp only [Nat.succ_eq_add_one]; omega)] at this
          rwa [show i + (l + 1) = i.succ + l by simp only [Nat.succ_eq_add_one]; omega]
      · rw [h2, e3]
        by_cases c : o' = o ∧ i.succ ≤ i' ∧ i' < i.succ + n
        · rw [if_pos c, if_pos (by simp only [Nat.succ_eq_add_one] at c; omega)]
          congr 2
          simp only [Nat.succ_eq_add_one] at c ⊢
          omega
        · rw [if_neg c]
          by_cases c2 : o' = o ∧ i' = i
          · rw [if_pos c2, if_pos (by omega), c2.2, Nat.sub_self, Nat.add_zero]
          · rw [if_neg c2, if_neg (by simp only [Nat.succ_eq_add_one] at c; omega)]

theorem pchkOp_ok {m : KM PH} {o i0 base t : Nat} (h : pchkOp m o i0 base t = true) {i : Nat} (hi : i < 64) :
    KM.rd m o (i0 + i) = some (.half (.lin (pformOf 64 (base + i) (pvW t)))) := by
  have := List.all_eq_true.mp h i (List.mem_range.mpr hi)
  split at this
  · rename_i l hl
    have := LF.eq_eq this
    subst this
    exact hl
  · cases this

theorem pCell_eq (t i : Nat) : pCell t i = .half (.lin [(pV t i, 1)]) := by
  unfold pCell
  rw [forceN_eq]

/-! ### The call -/

theorem pPre_ok {o1 p1 o2 p2 q t : Nat} (h : pPre o1 p1 o2 p2 q t = true) : t ≤ 6 ∧ p1 % 2 = 0 ∧ p2 % 2 = 0 ∧ q % 2 = 0 ∧ 416 ≤ q ∧
    q ≤ 424 ∧ (o1 < 3 ∨ 424 ≤ p1 ∧ p1 ≤ 1832) ∧ (o2 < 3 ∨ 424 ≤ p2 ∧ p2 ≤ 1832) ∧ (o1 ≠ o2 ∨ p1 + 128 ≤ p2 ∨ p2 + 128 ≤ p1) := by
  unfold pPre at h
  simp only [Bool.and_eq_true, Bool.or_eq_true, Bool.not_eq_true'] at h
  obtain ⟨h1, h2, h3, h4, h5, h6, h7, h8, h9⟩ := h
  have L {a b : Nat} (h : Nat.ble a b = true) : a ≤ b := Nat.le_of_ble_eq_true h
  refine ⟨L h1, Nat.beq_eq.mp h2, Nat.beq_eq.mp h3, Nat.beq_eq.mp h4, L h5, L h6, h7.imp L (And.imp L L), h8.imp L (And.imp L L), ?_⟩
  refine h9.imp (fun h e => ?_) (Or.imp L L)
  rw [e, Nat.beq_refl] at h
  cases h

theorem karaP_sim {a b : List R16} {env : Nat → CVal} {known : ∀ k, env k ≠ .undef} {m0 : conc.M} :
    FSim (pSim (vC a b) (vC_shifts a b)) (Ctx.plain env known m0) (mulF conc) karaP := by
  intro s s' s1' h e
  unfold karaP at e
  split at e
  next d o1 p1 o2 p2 q n e0 e1 e2 esp elr =>
    rw [forceN_eq] at e
    split at e
    next hc =>
      simp only [Bool.and_eq_true] at hc
      obtain ⟨hd, hpre, hop1, hop2⟩ := hc
      generalize ht : (d.sub pOff).div 256 = t at *
      have hd : d = 1960 + 256 * t := Nat.beq_eq.mp hd
      obtain ⟨g1, g2, g3, g4, g5, g6, g7, g8, g9⟩ := pPre_ok hpre
      split at e
      case h_2 => cases e
      rename_i m1 hw1
      split at e
      case h_2 => cases e
      rename_i m2 hw2
      simp only [Option.some.injEq] at e
      obtain ⟨w1, w2⟩ := pwrs_rd _ _ _ _ _ hw1
      obtain ⟨w3, w4⟩ := pwrs_rd _ _ _ _ _ hw2
      have w1 (l : Nat) (hl : l < 127) : (KM.rd s'.mem 3 (d / 2 + l)).isSome := w1 l hl
      have w2 (o' i' : Nat) : KM.rd m1 o' i' = if o' = 3 ∧ d / 2 ≤ i' ∧ i' < d / 2 + 127 then some (pCell t (0 + (i' - d / 2)))
        else KM.rd s'.mem o' i' := w2 o' i'
      have w3 (l : Nat) (hl : l < 208) : (KM.rd m1 3 (q / 2 - 208 + l)).isSome := w3 l hl
      have w4 (o' i' : Nat) : KM.rd m2 o' i' = if o' = 3 ∧ q / 2 - 208 ≤ i' ∧ i' < q / 2 - 208 + 208 then some .undef
        else KM.rd m1 o' i' := w4 o' i'
      have mrd (o i : Nat) (c' : Cell PH) (hc : KM.rd s'.mem o i = some c') :
          ∃ c, conc.rd s.mem o i = some c ∧ (pSim (vC a b) (vC_shifts a b)).RC (Ctx.plain env known m0) c c' := by
        obtain ⟨-, c, h1, h2⟩ := h.mem.rd o i c' hc
        refine ⟨c, ?_, h2⟩
        rwa [show (Ctx.plain env known m0).off o + i = i from Nat.zero_add i] at h1
      have op {o i0 base : Nat} (hop : pchkOp s'.mem o i0 base t = true) (i : Nat) (hi : i < 64) :
          ∃ x : BitVec 16, conc.rd s.mem o (i0 + i) = some (.half x) ∧
            (x.toNat : Int) ≡ lval (vC a b) (pformOf 64 (base + i) (pvW t)) [ZMOD 65536] := by
        obtain ⟨c, h1, x, rfl, h2⟩ := mrd _ _ _ (pchkOp_ok hop hi)
        exact ⟨x, h1, h2⟩
      obtain ⟨y, hy⟩ : ∃ y : Nat → BitVec 16, ∀ i, i < 64 → conc.rd s.mem o1 (p1 / 2 + i) = some (.half (y i)) ∧
            ((y i).toNat : Int) ≡ lval (vC a b) (pformOf 64 (0 + i) (pvW t)) [ZMOD 65536] :=
        ⟨fun i => if hi : i < 64 then (op hop1 i hi).choose else 0, fun i hi => by
          have := (op hop1 i hi).choose_spec
          simp only [hi, dif_pos]
          exact this⟩
      obtain ⟨x, hx⟩ : ∃ x : Nat → BitVec 16, ∀ i, i < 64 → conc.rd s.mem o2 (p2 / 2 + i) = some (.half (x i)) ∧
            ((x i).toNat : Int) ≡ lval (vC a b) (pformOf 64 (256 + i) (pvW t)) [ZMOD 65536] :=
        ⟨fun i => if hi : i < 64 then (op hop2 i hi).choose else 0, fun i hi => by
          have := (op hop2 i hi).choose_spec
          simp only [hi, dif_pos]
          exact this⟩
      have ptr {r : Reg} {o k : Nat} (hr : s'.get r = .a (.ptr o (.ofNat k))) : s.get r = .a (.ptr o k) := by
        have := h.reg r
        rw [hr] at this
        refine Eq.trans this ?_
        show Val.a (.ptr o ((k : Int) + 2 * ((0 : Nat) : Int))) = _
        simp
      have some3 (i : Nat) (hi : (KM.rd s'.mem 3 i).isSome) : (conc.rd s.mem 3 i).isSome := by
        obtain ⟨c', hc'⟩ := Option.isSome_iff_exists.mp hi
        obtain ⟨c, h1, -⟩ := mrd _ _ _ hc'
        rw [h1]; rfl
      have some3' (l : Nat) (hl : l < 208) : (conc.rd s.mem 3 (q / 2 - 208 + l)).isSome := by
        refine some3 _ ?_
        have := w3 l hl
        rw [w2, if_neg (by omega)] at this
        exact this
      obtain ⟨s1, k1, k2, k3, k4, kr0, kr1, kr2, k5, k6⟩ := mul_run_regs s (obT o1 o2) (offT d p1 p2 q) n x y
        ((ptr (r := .r0) e0).trans (by
          show Val.a (.ptr 3 (d : Int)) = .a (.ptr 3 (2 * ((d / 2 : Nat) : Int)))
          rw [show (d : Int) = 2 * ((d / 2 : Nat) : Int) by omega]))
        ((ptr (r := .r1) e1).trans (by
          show Val.a (.ptr o1 (p1 : Int)) = .a (.ptr o1 (2 * ((p1 / 2 : Nat) : Int)))
          rw [show (p1 : Int) = 2 * ((p1 / 2 : Nat) : Int) by omega]))
        ((ptr (r := .r2) e2).trans (by
          show Val.a (.ptr o2 (p2 : Int)) = .a (.ptr o2 (2 * ((p2 / 2 : Nat) : Int)))
          rw [show (p2 : Int) = 2 * ((p2 / 2 : Nat) : Int) by omega]))
        ((ptr (r := .sp) esp).trans (by
          show Val.a (.ptr 3 (q : Int)) = .a (.ptr 3 (416 + 2 * ((q / 2 - 208 : Nat) : Int)))
          rw [show (q : Int) = 416 + 2 * ((q / 2 - 208 : Nat) : Int) by omega]))
        (by
          have := h.reg .lr
          rw [show s'.get .lr = _ from elr] at this
          exact this)
        (by
          intro o o' h1 h2 h3
          match o, o', h1, h2 with
          | 0, 1, _, _ => have h3 : 3 = o1 := h3; show d / 2 + 127 ≤ p1 / 2 ∨ p1 / 2 + 64 ≤ d / 2; omega
          | 0, 2, _, _ => have h3 : 3 = o2 := h3; show d / 2 + 127 ≤ p2 / 2 ∨ p2 / 2 + 64 ≤ d / 2; omega
          | 0, 3, _, _ => show d / 2 + 127 ≤ q / 2 - 208 ∨ q / 2 - 208 + 208 ≤ d / 2; omega
          | 1, 2, _, _ => have h3 : o1 = o2 := h3; show p1 / 2 + 64 ≤ p2 / 2 ∨ p2 / 2 + 64 ≤ p1 / 2; omega
          | 1, 3, _, _ => have h3 : o1 = 3 := h3; show p1 / 2 + 64 ≤ q / 2 - 208 ∨ q / 2 - 208 + 208 ≤ p1 / 2; omega
          | 2, 3, _, _ => have h3 : o2 = 3 := h3; show p2 / 2 + 64 ≤ q / 2 - 208 ∨ q / 2 - 208 + 208 ≤ p2 / 2; omega
          | n + 3, o', h1, h2 => omega)
        (fun i hi => some3 _ (w1 i hi)) (fun i hi => (hy i hi).1) (fun i hi => (hx i hi).1) some3'
      refine ⟨s1, k1, ?_⟩
      subst e
      have k5 (i : Nat) (hi : i < 127) : conc.rd s1.mem 3 (d / 2 + i) = some (.half ((P64 x * P64 y).coeff i)) := k5 i hi
      have k6 (p j : Nat) (ha : ¬ (p = 3 ∧ d / 2 ≤ j ∧ j < d / 2 + 127)) (hb : ¬ (p = 3 ∧ q / 2 - 208 ≤ j ∧ j < q / 2 - 208 + 208)) :
        conc.rd s1.mem p j = conc.rd s.mem p j := k6 p j ha hb
      refine ⟨fun r => ?_, ⟨k2.trans h.mem.len, fun o i c' hc => ?_, fun p j hpj => absurd (Nat.zero_add j) (hpj p j trivial rfl)⟩, ⟨fun b hb => (nomatch hb), fun b hb => (nomatch hb)⟩⟩
      · cases r
        case sp =>
          have := h.reg .sp
          rw [show s'.get .sp = _ from esp] at this
          exact k3.trans this
        case r0 => exact kr0.trans (ptr (r := .r0) e0 |>.trans (by show _ = Val.a (.ptr 3 ((d : Int) + 2 * ((0 : Nat) : Int))); simp))
        case r1 => exact kr1.trans (ptr (r := .r1) e1 |>.trans (by show _ = Val.a (.ptr o1 ((p1 : Int) + 2 * ((0 : Nat) : Int))); simp))
        case r2 => exact kr2.trans (ptr (r := .r2) e2 |>.trans (by show _ = Val.a (.ptr o2 ((p2 : Int) + 2 * ((0 : Nat) : Int))); simp))
        case pc => exact k4
        all_goals (exact trivial)
      · refine ⟨trivial, ?_⟩
        rw [show (Ctx.plain env known m0).off o + i = i from Nat.zero_add i, show (Ctx.plain env known m0).ob o = o from rfl]
        have hm : KM.rd m2 o i = some c' := hc
        clear hc
        rw [w4] at hm
        split at hm
        next hr =>
          cases hm
          obtain ⟨rfl, hr1, hr2⟩ := hr
          have : (conc.rd s1.mem 3 i).isSome := by
            refine rd_isSome_of_len k2 ?_
            have := some3' (i - (q / 2 - 208)) (by omega)
            rwa [show q / 2 - 208 + (i - (q / 2 - 208)) = i by omega] at this
          obtain ⟨c, hc⟩ := Option.isSome_iff_exists.mp this
          exact ⟨c, hc, by cases c <;> trivial⟩
        next hr =>
          rw [w2] at hm
          split at hm
          next hr2 =>
            obtain ⟨rfl, hr3, hr4⟩ := hr2
            rw [pCell_eq, Nat.zero_add] at hm
            have hm := Option.some.inj hm
            subst hm
            have hi : i - d / 2 < 127 := by omega
            have := k5 _ hi
            rw [show d / 2 + (i - d / 2) = i by omega] at this
            refine ⟨_, this, _, rfl, ?_⟩
            exact pprod_coeff (by omega) (fun i hi => (hy i hi).2) (fun i hi => (hx i hi).2) _ (by omega)
          next hr2 =>
            obtain ⟨c, q1, q2⟩ := mrd o i c' hm
            exact ⟨c, (k6 o i hr2 hr).trans q1, q2⟩
    next => cases e
  next => cases e


end Saber.Arm
