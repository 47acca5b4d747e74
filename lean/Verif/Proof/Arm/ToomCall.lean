import Verif.Proof.Arm.KaraL
import Verif.Proof.Arm.LSim
import Verif.Proof.Arm.Mul
/-!
# The calls of `karatsuba_64x64` in `toom_cook_4way_mem_asm`
-/
namespace Saber.Arm
open Polynomial

/-! ### The variables -/

/-- `∑_j A_j B_{k-j}` for the blocks of 64 coefficients of `a` and `b`. -/
noncomputable def cpoly (a b : List R16) : Nat → R16[X]
  | 0 => S a 0 64 * S b 0 64
  | 1 => S a 0 64 * S b 64 64 + S a 64 64 * S b 0 64
  | 2 => S a 0 64 * S b 128 64 + S a 64 64 * S b 64 64 + S a 128 64 * S b 0 64
  | 3 => S a 0 64 * S b 192 64 + S a 64 64 * S b 128 64 + S a 128 64 * S b 64 64 + S a 192 64 * S b 0 64
  | 4 => S a 64 64 * S b 192 64 + S a 128 64 * S b 128 64 + S a 192 64 * S b 64 64
  | 5 => S a 128 64 * S b 192 64 + S a 192 64 * S b 128 64
  | 6 => S a 192 64 * S b 192 64
  | _ => 0

/-- The values of the variables other than the lost bits. -/
noncomputable def val0 (a b res : List R16) (n : Nat) : R16 :=
  if n < 256 then a.getD n 0
  else if n < 512 then b.getD (n - 256) 0
  else if n < 1024 then res.getD (n - 512) 0
  else (cpoly a b ((n - 1024) / 128)).coeff ((n - 1024) % 128)

/-- The values of all variables. -/
noncomputable def valT (a b res : List R16) (n : Nat) : Int :=
  if n < 8192 then (val0 a b res n).toNat
  else if n < 9216 then -(lval (fun n => (val0 a b res n).toNat) (diffF (n - 8192)) / 65536)
  else -(lval (fun n => (val0 a b res n).toNat) (diffF (n - 9216)) / 65536) +
    lval (fun n => (val0 a b res n).toNat) (diffF (n - 9216)) % 65536 / 32768

theorem valT_lt {a b res : List R16} {n : Nat} (h : n < 8192) : valT a b res n = (val0 a b res n).toNat := if_pos h

theorem valT_diffF {a b res : List R16} {i : Nat} (hi : i < 128) :
    lval (valT a b res) (diffF i) = lval (fun n => (val0 a b res n).toNat) (diffF i) := by
  simp only [diffF, lval_cons, lval_nil]
  rw [valT_lt (show Nat.add 1152 i < 8192 by show 1152 + i < 8192; omega), valT_lt (show Nat.add 1408 i < 8192 by show 1408 + i < 8192; omega),
    valT_lt (show Nat.add 1664 i < 8192 by show 1664 + i < 8192; omega)]

theorem valT_carries (a b res : List R16) : Carries (valT a b res) where
  lsr i hi := by
    rw [valT_diffF hi, valT, if_neg (by omega), if_pos (by omega), Nat.add_sub_cancel_left]
  asr i hi := by
    rw [valT_diffF hi, valT, if_neg (by omega), if_neg (by omega), Nat.add_sub_cancel_left]

/-! ### Forms as elements of the ring -/

theorem u16_toNat (x : R16) : u16 (x.toNat : Int) = x := u16_prom x

theorem u16_modEq {x y : Int} : u16 x = u16 y ↔ x ≡ y [ZMOD 65536] := u16_eq_iff x y

theorem u16_valT {a b res : List R16} {n : Nat} (h : n < 8192) : u16 (valT a b res n) = val0 a b res n := by
  rw [valT_lt h, u16_toNat]

theorem u16_zero : u16 0 = 0 := by decide

theorem u16_formOf (v : Nat → Int) (s : Nat) (w : Nat) (l : List Nat) :
    u16 (lval v (formOf s w l)) = ∑ m ∈ Finset.range l.length, BitVec.ofNat 16 (l.getD m 0) * u16 (v (w + s * m)) := by
  induction l generalizing w with
  | nil => simp [formOf, lval_nil, u16_zero]
  | cons c l ih =>
    rw [formOf, lval_consF, u16_add, u16_mul, ih, List.length_cons, Finset.sum_range_succ', add_comm]
    congr 1
    refine Finset.sum_congr rfl fun m _ => ?_
    rw [List.getD_cons_succ, show w.add s + s * m = w + s * (m + 1) by show w + s + s * m = _; ring]

/-- The weights of an operand and of a product. -/
def ew (t m : Nat) : R16 := BitVec.ofNat 16 ((evW t).getD m 0)
@[inherit_doc ew] def fw (t k : Nat) : R16 := BitVec.ofNat 16 ((evP t).getD k 0)

theorem ew_mul : ∀ t < 7, ∀ i < 4, ∀ j < 4, ew t i * ew t j = fw t (i + j) := by decide

theorem evW_length : ∀ t < 7, (evW t).length = 4 := by decide
theorem evP_length : ∀ t < 7, (evP t).length = 7 := by decide

/-- An operand as a polynomial. -/
theorem P64_operand {a : List R16} {v : Nat → Int} {base t : Nat} (ht : t < 7) {x : Nat → R16}
    (hv : ∀ n, n < 256 → u16 (v (base + n)) = a.getD n 0)
    (hx : ∀ i, i < 64 → ((x i).toNat : Int) ≡ lval v (formOf 64 (base + i) (evW t)) [ZMOD 65536]) :
    P64 x = C (ew t 0) * S a 0 64 + C (ew t 1) * S a 64 64 + C (ew t 2) * S a 128 64 + C (ew t 3) * S a 192 64 := by
  ext1 k
  rw [P64_coeff]
  simp only [coeff_add, coeff_C_mul, S_coeff]
  split
  · rename_i hk
    have := u16_modEq.mpr (hx k hk)
    rw [u16_toNat, u16_formOf, evW_length t ht] at this
    rw [this]
    simp only [Finset.sum_range_succ, Finset.sum_range_zero, zero_add, Nat.add_assoc]
    rw [hv _ (by omega), hv _ (by omega), hv _ (by omega), hv _ (by omega)]
    simp only [ew, Nat.mul_zero, Nat.mul_one, Nat.add_zero]
    rw [Nat.add_comm k 64, Nat.add_comm k (64 * 2), Nat.add_comm k (64 * 3)]
  · simp

/-- The product of two operands as a polynomial. -/
theorem P64_prod {a b : List R16} {t : Nat} (ht : t < 7) {x y : Nat → R16}
    (hx : P64 x = C (ew t 0) * S a 0 64 + C (ew t 1) * S a 64 64 + C (ew t 2) * S a 128 64 + C (ew t 3) * S a 192 64)
    (hy : P64 y = C (ew t 0) * S b 0 64 + C (ew t 1) * S b 64 64 + C (ew t 2) * S b 128 64 + C (ew t 3) * S b 192 64) :
    P64 x * P64 y = C (fw t 0) * cpoly a b 0 + C (fw t 1) * cpoly a b 1 + C (fw t 2) * cpoly a b 2 + C (fw t 3) * cpoly a b 3 +
      C (fw t 4) * cpoly a b 4 + C (fw t 5) * cpoly a b 5 + C (fw t 6) * cpoly a b 6 := by
  have w (i j : Nat) (hi : i < 4) (hj : j < 4) : C (ew t i) * C (ew t j) = C (fw t (i + j)) := by rw [← C_mul, ew_mul t ht i hi j hj]
  rw [hx, hy]
  simp only [cpoly]
  have w00 := w 0 0 (by decide) (by decide)
  have w01 := w 0 1 (by decide) (by decide)
  have w02 := w 0 2 (by decide) (by decide)
  have w11 := w 1 1 (by decide) (by decide)
  have w03 := w 0 3 (by decide) (by decide)
  have w12 := w 1 2 (by decide) (by decide)
  have w13 := w 1 3 (by decide) (by decide)
  have w22 := w 2 2 (by decide) (by decide)
  have w23 := w 2 3 (by decide) (by decide)
  have w33 := w 3 3 (by decide) (by decide)
  simp only [Nat.reduceAdd] at w00 w01 w02 w11 w03 w12 w13 w22 w23 w33
  generalize C (ew t 0) = e0 at *
  generalize C (ew t 1) = e1 at *
  generalize C (ew t 2) = e2 at *
  generalize C (ew t 3) = e3 at *
  rw [← w00, ← w01, ← w23, ← w33]
  linear_combination (S a 0 64 * S b 128 64 + S a 128 64 * S b 0 64) * w02 + S a 64 64 * S b 64 64 * w11 +
    (S a 0 64 * S b 192 64 + S a 192 64 * S b 0 64) * w03 + (S a 64 64 * S b 128 64 + S a 128 64 * S b 64 64) * w12 +
    (S a 64 64 * S b 192 64 + S a 192 64 * S b 64 64) * w13 + S a 128 64 * S b 128 64 * w22

/-- The product of two operands. -/
theorem prod_coeff {a b res : List R16} {t : Nat} (ht : t < 7) {x y : Nat → R16}
    (hx : ∀ i, i < 64 → ((x i).toNat : Int) ≡ lval (valT a b res) (formOf 64 (0 + i) (evW t)) [ZMOD 65536])
    (hy : ∀ i, i < 64 → ((y i).toNat : Int) ≡ lval (valT a b res) (formOf 64 (256 + i) (evW t)) [ZMOD 65536]) (i : Nat) (hi : i < 128) :
    (((P64 x * P64 y).coeff i).toNat : Int) ≡ lval (valT a b res) (formOf 128 (1024 + i) (evP t)) [ZMOD 65536] := by
  have hx := P64_operand (a := a) ht (fun n hn => by
    rw [Nat.zero_add, u16_valT (by omega), val0, if_pos hn]) hx
  have hy := P64_operand (a := b) ht (fun n hn => by
    rw [u16_valT (by omega), val0, if_neg (by omega), if_pos (by omega), Nat.add_sub_cancel_left]) hy
  have hc (k : Nat) (hk : k < 7) : u16 (valT a b res (1024 + i + 128 * k)) = (cpoly a b k).coeff i := by
    rw [u16_valT (by omega), val0, if_neg (by omega), if_neg (by omega), if_neg (by omega),
      show (1024 + i + 128 * k - 1024) / 128 = k by omega, show (1024 + i + 128 * k - 1024) % 128 = i by omega]
  rw [← u16_modEq, u16_toNat, u16_formOf, evP_length t ht]
  simp only [Finset.sum_range_succ, Finset.sum_range_zero, zero_add]
  rw [hc 0 (by decide), hc 1 (by decide), hc 2 (by decide), hc 3 (by decide), hc 4 (by decide), hc 5 (by decide), hc 6 (by decide)]
  have key := P64_prod ht hx hy
  rw [key]
  simp only [coeff_add, coeff_C_mul]
  rfl

/-! ### Memory -/

theorem wrs_rd {f : Nat → Cell LH} {o : Nat} (n : Nat) : ∀ (j i : Nat) (m m1 : KM LH), wrs f o n j i m = some m1 →
    (∀ l, l < n → (KM.rd m o (i + l)).isSome) ∧
      ∀ o' i', KM.rd m1 o' i' = if o' = o ∧ i ≤ i' ∧ i' < i + n then some (f (j + (i' - i))) else KM.rd m o' i' := by
  induction n with
  | zero =>
    intro j i m m1 h
    simp only [wrs, Option.some.injEq] at h
    subst h
    refine ⟨fun l hl => absurd hl (Nat.not_lt_zero l), fun o' i' => ?_⟩
    rw [if_neg (by omega)]
  | succ n ih =>
    intro j i m m1 h
    rw [wrs] at h
    cases hw : KM.wrK m o i (f j) some with
    | none => simp [hw] at h
    | some m2 =>
      simp only [hw] at h
      obtain ⟨m2', e1, e2, e3⟩ := KM.wrK_rd m o i (f j) some m2 hw
      cases e1
      obtain ⟨h1, h2⟩ := ih _ _ _ _ h
      refine ⟨fun l hl => ?_, fun o' i' => ?_⟩
      · cases l with
        | zero => exact e2
        | succ l =>
          have := h1 l (by omega)
          rw [e3] at this
          rw [if_neg (by simp only [Nat.succ_eq_add_one]; omega)] at this
          rwa [show i + (l + 1) = i.succ + l by simp only [Nat.succ_eq_add_one]; omega]
      · rw [h2, e3]
        by_cases c : o' = o ∧ i.succ ≤ i' ∧ i' < i.succ + n
        · rw [if_pos c, if_pos (by simp only [Nat.succ_eq_add_one] at c; omega)]
          congr 2
          simp only [Nat.succ_eq_add_one] at c ⊢
          omega
        · rw [if_neg c]
          by_cases c2 : o' = o ∧ i' = i
          · rw [if_pos c2, if_pos (by omega), c2.2, Nat.sub_self, Nat.add_zero]
          · rw [if_neg c2, if_neg (by simp only [Nat.succ_eq_add_one] at c; omega)]

theorem rd_isSome (m : conc.M) (o i : Nat) : (conc.rd m o i).isSome ↔ ∃ n, (m.map List.length)[o]? = some n ∧ i < n := by
  show ((match (cmem m)[o]? with | some a => a[i]? | none => none) : Option (Cell (BitVec 16))).isSome ↔ ∃ n, ((cmem m).map List.length)[o]? = some n ∧ i < n
  rw [List.getElem?_map]
  cases h : (cmem m)[o]? with
  | none => simp
  | some a =>
    simp only [Option.map_some, Option.some.injEq, exists_eq_left']
    rw [Option.isSome_iff_ne_none, ne_eq, List.getElem?_eq_none_iff, Nat.not_le]

theorem rd_isSome_of_len {m m' : conc.M} (h : m.map List.length = m'.map List.length) {o i : Nat} (hs : (conc.rd m' o i).isSome) :
    (conc.rd m o i).isSome := by
  rw [rd_isSome] at hs ⊢
  rwa [h]

theorem chkOp_ok {m : KM LH} {o i0 base t : Nat} (h : chkOp m o i0 base t = true) {i : Nat} (hi : i < 64) :
    KM.rd m o (i0 + i) = some (.half (.lin 16 (formOf 64 (base + i) (evW t)))) := by
  have := List.all_eq_true.mp h i (List.mem_range.mpr hi)
  split at this
  · rename_i l hl
    have := LF.eq_eq this
    subst this
    exact hl
  · cases this

theorem dstCell_eq (t i : Nat) : dstCell t i = .half (.lin 16 (formOf 128 (1024 + i) (evP t))) := by
  unfold dstCell
  rw [LF.force_eq]
  rfl

/-! ### The call -/

theorem karaPre_ok {o1 p1 o2 p2 q t : Nat} (h : karaPre o1 p1 o2 p2 q t = true) : t ≤ 6 ∧ p1 % 2 = 0 ∧ p2 % 2 = 0 ∧ q % 2 = 0 ∧ 416 ≤ q ∧
    q ≤ 432 ∧ (o1 < 3 ∨ 2224 ≤ p1) ∧ (o2 < 3 ∨ 2224 ≤ p2) ∧ (o1 ≠ o2 ∨ p1 + 128 ≤ p2 ∨ p2 + 128 ≤ p1) := by
  unfold karaPre at h
  simp only [Bool.and_eq_true, Bool.or_eq_true, Bool.not_eq_true'] at h
  obtain ⟨h1, h2, h3, h4, h5, h6, h7, h8, h9⟩ := h
  have L {a b : Nat} (h : Nat.ble a b = true) : a ≤ b := Nat.le_of_ble_eq_true h
  refine ⟨L h1, Nat.beq_eq.mp h2, Nat.beq_eq.mp h3, Nat.beq_eq.mp h4, L h5, L h6, h7.imp L L, h8.imp L L, ?_⟩
  refine h9.imp (fun h e => ?_) (Or.imp L L)
  rw [e, Nat.beq_refl] at h
  cases h

/-- Places of the result, the operands and the stack. -/
def obT (o1 o2 : Nat) : Nat → Nat
  | 0 => 3
  | 1 => o1
  | 2 => o2
  | _ => 3
@[inherit_doc obT] def offT (d p1 p2 q : Nat) : Nat → Nat
  | 0 => d / 2
  | 1 => p1 / 2
  | 2 => p2 / 2
  | _ => q / 2 - 208

theorem karaL_sim {a b res : List R16} {env : Nat → CVal} {known : ∀ k, env k ≠ .undef} {m0 : conc.M} :
    FSim (lSim (valT a b res) (valT_carries a b res)) (Ctx.plain env known m0) (mulF conc) karaL := by
  intro s s' s1' h e
  unfold karaL at e
  split at e
  next d o1 p1 o2 p2 q n e0 e1 e2 esp elr =>
    rw [forceN_eq] at e
    split at e
    next hc =>
      simp only [Bool.and_eq_true] at hc
      obtain ⟨hd, hpre, hop1, hop2⟩ := hc
      generalize ht : (d.sub wOff).div 256 = t at *
      have hd : d = 432 + 256 * t := Nat.beq_eq.mp hd
      obtain ⟨g1, g2, g3, g4, g5, g6, g7, g8, g9⟩ := karaPre_ok hpre
      split at e
      case h_2 => cases e
      rename_i m1 hw1
      split at e
      case h_2 => cases e
      rename_i m2 hw2
      simp only [Option.some.injEq] at e
      obtain ⟨w1, w2⟩ := wrs_rd _ _ _ _ _ hw1
      obtain ⟨w3, w4⟩ := wrs_rd _ _ _ _ _ hw2
      have w1 (l : Nat) (hl : l < 127) : (KM.rd s'.mem 3 (d / 2 + l)).isSome := w1 l hl
      have w2 (o' i' : Nat) : KM.rd m1 o' i' = if o' = 3 ∧ d / 2 ≤ i' ∧ i' < d / 2 + 127 then some (dstCell t (0 + (i' - d / 2)))
        else KM.rd s'.mem o' i' := w2 o' i'
      have w3 (l : Nat) (hl : l < 208) : (KM.rd m1 3 (q / 2 - 208 + l)).isSome := w3 l hl
      have w4 (o' i' : Nat) : KM.rd m2 o' i' = if o' = 3 ∧ q / 2 - 208 ≤ i' ∧ i' < q / 2 - 208 + 208 then some .undef
        else KM.rd m1 o' i' := w4 o' i'
      have mrd (o i : Nat) (c' : Cell LH) (hc : KM.rd s'.mem o i = some c') :
          ∃ c, conc.rd s.mem o i = some c ∧ (lSim (valT a b res) (valT_carries a b res)).RC (Ctx.plain env known m0) c c' := by
        obtain ⟨-, c, h1, h2⟩ := h.mem.rd o i c' hc
        refine ⟨c, ?_, h2⟩
        rwa [show (Ctx.plain env known m0).off o + i = i from Nat.zero_add i] at h1
      have op {o i0 base : Nat} (hop : chkOp s'.mem o i0 base t = true) (i : Nat) (hi : i < 64) :
          ∃ x : BitVec 16, conc.rd s.mem o (i0 + i) = some (.half x) ∧
            (x.toNat : Int) ≡ lval (valT a b res) (formOf 64 (base + i) (evW t)) [ZMOD 65536] := by
        obtain ⟨c, h1, x, rfl, -, h2⟩ := mrd _ _ _ (chkOp_ok hop hi)
        exact ⟨x, h1, h2⟩
      obtain ⟨y, hy⟩ : ∃ y : Nat → BitVec 16, ∀ i, i < 64 → conc.rd s.mem o1 (p1 / 2 + i) = some (.half (y i)) ∧
            ((y i).toNat : Int) ≡ lval (valT a b res) (formOf 64 (256 + i) (evW t)) [ZMOD 65536] :=
        ⟨fun i => if hi : i < 64 then (op hop1 i hi).choose else 0, fun i hi => by
          have := (op hop1 i hi).choose_spec
          simp only [hi, dif_pos]
          exact this⟩
      obtain ⟨x, hx⟩ : ∃ x : Nat → BitVec 16, ∀ i, i < 64 → conc.rd s.mem o2 (p2 / 2 + i) = some (.half (x i)) ∧
            ((x i).toNat : Int) ≡ lval (valT a b res) (formOf 64 (0 + i) (evW t)) [ZMOD 65536] :=
        ⟨fun i => if hi : i < 64 then (op hop2 i hi).choose else 0, fun i hi => by
          have := (op hop2 i hi).choose_spec
          simp only [hi, dif_pos]
          exact this⟩
      have ptr {r : Reg} {o k : Nat} (hr : s'.get r = .a (.ptr o (.ofNat k))) : s.get r = .a (.ptr o k) := by
        have := h.reg r
        rw [hr] at this
        refine Eq.trans this ?_
        show Val.a (.ptr o ((k : Int) + 2 * ((0 : Nat) : Int))) = _
        simp
      have some3 (i : Nat) (hi : (KM.rd s'.mem 3 i).isSome) : (conc.rd s.mem 3 i).isSome := by
        obtain ⟨c', hc'⟩ := Option.isSome_iff_exists.mp hi
        obtain ⟨c, h1, -⟩ := mrd _ _ _ hc'
        rw [h1]; rfl
      have some3' (l : Nat) (hl : l < 208) : (conc.rd s.mem 3 (q / 2 - 208 + l)).isSome := by
        refine some3 _ ?_
        have := w3 l hl
        rw [w2, if_neg (by omega)] at this
        exact this
      obtain ⟨s1, k1, k2, k3, k4, k5, k6⟩ := mul_run s (obT o1 o2) (offT d p1 p2 q) n x y
        ((ptr (r := .r0) e0).trans (by
          show Val.a (.ptr 3 (d : Int)) = .a (.ptr 3 (2 * ((d / 2 : Nat) : Int)))
          rw [show (d : Int) = 2 * ((d / 2 : Nat) : Int) by omega]))
        ((ptr (r := .r1) e1).trans (by
          show Val.a (.ptr o1 (p1 : Int)) = .a (.ptr o1 (2 * ((p1 / 2 : Nat) : Int)))
          rw [show (p1 : Int) = 2 * ((p1 / 2 : Nat) : Int) by omega]))
        ((ptr (r := .r2) e2).trans (by
          show Val.a (.ptr o2 (p2 : Int)) = .a (.ptr o2 (2 * ((p2 / 2 : Nat) : Int)))
          rw [show (p2 : Int) = 2 * ((p2 / 2 : Nat) : Int) by omega]))
        ((ptr (r := .sp) esp).trans (by
          show Val.a (.ptr 3 (q : Int)) = .a (.ptr 3 (416 + 2 * ((q / 2 - 208 : Nat) : Int)))
          rw [show (q : Int) = 416 + 2 * ((q / 2 - 208 : Nat) : Int) by omega]))
        (by
          have := h.reg .lr
          rw [show s'.get .lr = _ from elr] at this
          exact this)
        (by
          intro o o' h1 h2 h3
          match o, o', h1, h2 with
          | 0, 1, _, _ => have h3 : 3 = o1 := h3; show d / 2 + 127 ≤ p1 / 2 ∨ p1 / 2 + 64 ≤ d / 2; omega
          | 0, 2, _, _ => have h3 : 3 = o2 := h3; show d / 2 + 127 ≤ p2 / 2 ∨ p2 / 2 + 64 ≤ d / 2; omega
          | 0, 3, _, _ => show d / 2 + 127 ≤ q / 2 - 208 ∨ q / 2 - 208 + 208 ≤ d / 2; omega
          | 1, 2, _, _ => have h3 : o1 = o2 := h3; show p1 / 2 + 64 ≤ p2 / 2 ∨ p2 / 2 + 64 ≤ p1 / 2; omega
          | 1, 3, _, _ => have h3 : o1 = 3 := h3; show p1 / 2 + 64 ≤ q / 2 - 208 ∨ q / 2 - 208 + 208 ≤ p1 / 2; omega
          | 2, 3, _, _ => have h3 : o2 = 3 := h3; show p2 / 2 + 64 ≤ q / 2 - 208 ∨ q / 2 - 208 + 208 ≤ p2 / 2; omega
          | n + 3, o', h1, h2 => omega)
        (fun i hi => some3 _ (w1 i hi)) (fun i hi => (hy i hi).1) (fun i hi => (hx i hi).1) some3'
      refine ⟨s1, k1, ?_⟩
      subst e
      have k5 (i : Nat) (hi : i < 127) : conc.rd s1.mem 3 (d / 2 + i) = some (.half ((P64 x * P64 y).coeff i)) := k5 i hi
      have k6 (p j : Nat) (ha : ¬ (p = 3 ∧ d / 2 ≤ j ∧ j < d / 2 + 127)) (hb : ¬ (p = 3 ∧ q / 2 - 208 ≤ j ∧ j < q / 2 - 208 + 208)) :
        conc.rd s1.mem p j = conc.rd s.mem p j := k6 p j ha hb
      refine ⟨fun r => ?_, ⟨k2.trans h.mem.len, fun o i c' hc => ?_, fun p j hpj => absurd (Nat.zero_add j) (hpj p j trivial rfl)⟩, ⟨fun b hb => (nomatch hb), fun b hb => (nomatch hb)⟩⟩
      · cases r
        case sp =>
          have := h.reg .sp
          rw [show s'.get .sp = _ from esp] at this
          exact k3.trans this
        case pc => exact k4
        all_goals (exact trivial)
      · refine ⟨trivial, ?_⟩
        rw [show (Ctx.plain env known m0).off o + i = i from Nat.zero_add i, show (Ctx.plain env known m0).ob o = o from rfl]
        have hm : KM.rd m2 o i = some c' := hc
        clear hc
        rw [w4] at hm
        split at hm
        next hr =>
          cases hm
          obtain ⟨rfl, hr1, hr2⟩ := hr
          have : (conc.rd s1.mem 3 i).isSome := by
            refine rd_isSome_of_len k2 ?_
            have := some3' (i - (q / 2 - 208)) (by omega)
            rwa [show q / 2 - 208 + (i - (q / 2 - 208)) = i by omega] at this
          obtain ⟨c, hc⟩ := Option.isSome_iff_exists.mp this
          exact ⟨c, hc, by cases c <;> trivial⟩
        next hr =>
          rw [w2] at hm
          split at hm
          next hr2 =>
            obtain ⟨rfl, hr3, hr4⟩ := hr2
            rw [dstCell_eq, Nat.zero_add] at hm
            have hm := Option.some.inj hm
            subst hm
            have hi : i - d / 2 < 127 := by omega
            have := k5 _ hi
            rw [show d / 2 + (i - d / 2) = i by omega] at this
            refine ⟨_, this, _, rfl, le_refl _, ?_⟩
            exact prod_coeff (by omega) (fun i hi => (hx i hi).2) (fun i hi => (hy i hi).2) _ (by omega)
          next hr2 =>
            obtain ⟨c, q1, q2⟩ := mrd o i c' hm
            exact ⟨c, (k6 o i hr2 hr).trans q1, q2⟩
    next => cases e
  next => cases e

end Saber.Arm
