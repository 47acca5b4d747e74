import Verif.Proof.Arm.PCall
import Verif.Spec.WideProduct
/-!
# `polymul_asm` multiplies polynomials with 256 coefficients modulo `2^13`
-/
namespace Saber.Arm
open Polynomial

theorem polymulCheck_ok : polymulCheck = true := by decide +kernel

/-! ### The interpolation -/

/-- The interpolation recovers the coefficients modulo `2^13`, although bits are lost in the shifts. -/
theorem interp {v : Nat → Int} (hv : Shifts v) {i : Nat} (hi : i < 128) {c0 c1 c2 c3 c4 c5 c6 : Int}
    (h0 : v (pV 0 i) ≡ c0 [ZMOD 65536])
    (h1 : v (pV 1 i) ≡ c0 + c1 + c2 + c3 + c4 + c5 + c6 [ZMOD 65536])
    (h2 : v (pV 2 i) ≡ c0 - c1 + c2 - c3 + c4 - c5 + c6 [ZMOD 65536])
    (h3 : v (pV 3 i) ≡ c0 + 2 * c1 + 4 * c2 + 8 * c3 + 16 * c4 + 32 * c5 + 64 * c6 [ZMOD 65536])
    (h4 : v (pV 4 i) ≡ c0 - 2 * c1 + 4 * c2 - 8 * c3 + 16 * c4 - 32 * c5 + 64 * c6 [ZMOD 65536])
    (h5 : v (pV 5 i) ≡ c0 + 3 * c1 + 9 * c2 + 27 * c3 + 81 * c4 + 243 * c5 + 729 * c6 [ZMOD 65536])
    (h6 : v (pV 6 i) ≡ c6 [ZMOD 65536]) :
    lval v (blkForm 0 i) ≡ c0 [ZMOD 8192] ∧ lval v (blkForm 1 i) ≡ c1 [ZMOD 8192] ∧ lval v (blkForm 2 i) ≡ c2 [ZMOD 8192] ∧
    lval v (blkForm 3 i) ≡ c3 [ZMOD 8192] ∧ lval v (blkForm 4 i) ≡ c4 [ZMOD 8192] ∧ lval v (blkForm 5 i) ≡ c5 [ZMOD 8192] ∧
    lval v (blkForm 6 i) ≡ c6 [ZMOD 8192] := by
  have s0 := hv.shr 0 i (by decide) hi
  have s1 := hv.shr 1 i (by decide) hi
  have s2 := hv.shr 2 i (by decide) hi
  have s3 := hv.shr 3 i (by decide) hi
  have s4 := hv.shr 4 i (by decide) hi
  have b (t : Nat) (ht : t < 7) : 0 ≤ v (pV t i) ∧ v (pV t i) < 65536 := hv.prod _ (by rw [pV_eq]; omega) (by rw [pV_eq]; omega)
  have b1 := b 1 (by decide)
  have b2 := b 2 (by decide)
  simp only [qForm, qSh, lval_cons, lval_nil] at s0 s1 s2 s3 s4
  simp only [blkForm, lval_cons, lval_nil]
  push_cast at s0 s1 s2 s3 s4 ⊢
  generalize v (pV 0 i) = p0 at *
  generalize v (pV 1 i) = p1 at *
  generalize v (pV 2 i) = p2 at *
  generalize v (pV 3 i) = p3 at *
  generalize v (pV 4 i) = p4 at *
  generalize v (pV 5 i) = p5 at *
  generalize v (pV 6 i) = p6 at *
  generalize v (qV 0 i) = q0 at *
  generalize v (qV 1 i) = q1 at *
  generalize v (qV 2 i) = q2 at *
  generalize v (qV 3 i) = q3 at *
  generalize v (qV 4 i) = q4 at *
  clear b hv
  have key {x y : Int} {n : Int} (h : x ≡ y [ZMOD n]) : ∃ m, x = y + n * m := by
    obtain ⟨m, hm⟩ := h.symm.dvd
    exact ⟨m, by linarith⟩
  obtain ⟨m0, e0⟩ := key h0
  obtain ⟨m1, e1⟩ := key h1
  obtain ⟨m2, e2⟩ := key h2
  obtain ⟨m3, e3⟩ := key h3
  obtain ⟨m4, e4⟩ := key h4
  obtain ⟨m5, e5⟩ := key h5
  obtain ⟨m6, e6⟩ := key h6
  clear h0 h1 h2 h3 h4 h5 h6 key
  have t0 : q0 = c0 + c2 + c4 + c6 + 32768 * (m1 + m2) := by omega
  have t2 : ∃ z, q2 = c1 + c3 + c5 + 32768 * (m1 - m2) + 65536 * z := ⟨(q2 - (c1 + c3 + c5 + 32768 * (m1 - m2))) / 65536, by omega⟩
  have t1 : ∃ z, q1 = c2 + 4 * c4 + 8192 * z := ⟨(q1 - (c2 + 4 * c4)) / 8192, by omega⟩
  have t3 : ∃ z, q3 = c1 + 4 * c3 + 16 * c5 + 16384 * z := ⟨(q3 - (c1 + 4 * c3 + 16 * c5)) / 16384, by omega⟩
  obtain ⟨z1, t1⟩ := t1
  obtain ⟨z2, t2⟩ := t2
  obtain ⟨z3, t3⟩ := t3
  have t4 : ∃ z, q4 = c3 + 10 * c5 + 8192 * z := ⟨(q4 - (c3 + 10 * c5)) / 8192, by
    clear s0 s1 s2 s3 b1 b2 t3
    subst t0 t1 t2 e0 e5 e6
    omega⟩
  obtain ⟨z4, t4⟩ := t4
  clear s0 s1 s2 s3 s4 b1 b2
  subst t0 t1 t2 t3 t4 e0 e6
  refine ⟨?_, ?_, ?_, ?_, ?_, ?_, ?_⟩ <;> (show _ % _ = _ % _; omega)

/-! ### The products -/

/-- The weights of the blocks of a product. -/
def pvP : Nat → List Nat
  | 0 => [1, 0, 0, 0, 0, 0, 0]
  | 1 => [1, 1, 1, 1, 1, 1, 1]
  | 2 => [1, 65535, 1, 65535, 1, 65535, 1]
  | 3 => [1, 2, 4, 8, 16, 32, 64]
  | 4 => [1, 65534, 4, 65528, 16, 65504, 64]
  | 5 => [1, 3, 9, 27, 81, 243, 729]
  | _ => [0, 0, 0, 0, 0, 0, 1]

def pfw (t k : Nat) : R16 := BitVec.ofNat 16 ((pvP t).getD k 0)

theorem pew_mul : ∀ t < 7, ∀ i < 4, ∀ j < 4, pew t i * pew t j = pfw t (i + j) := by decide

theorem opP_mul (a b : List R16) {t : Nat} (ht : t < 7) : opP a t * opP b t = C (pfw t 0) * cpoly a b 0 + C (pfw t 1) * cpoly a b 1 +
    C (pfw t 2) * cpoly a b 2 + C (pfw t 3) * cpoly a b 3 + C (pfw t 4) * cpoly a b 4 + C (pfw t 5) * cpoly a b 5 +
    C (pfw t 6) * cpoly a b 6 := by
  have w (i j : Nat) (hi : i < 4) (hj : j < 4) : C (pew t i) * C (pew t j) = C (pfw t (i + j)) := by rw [← C_mul, pew_mul t ht i hi j hj]
  simp only [cpoly, opP]
  have w00 := w 0 0 (by decide) (by decide)
  have w01 := w 0 1 (by decide) (by decide)
  have w02 := w 0 2 (by decide) (by decide)
  have w11 := w 1 1 (by decide) (by decide)
  have w03 := w 0 3 (by decide) (by decide)
  have w12 := w 1 2 (by decide) (by decide)
  have w13 := w 1 3 (by decide) (by decide)
  have w22 := w 2 2 (by decide) (by decide)
  have w23 := w 2 3 (by decide) (by decide)
  have w33 := w 3 3 (by decide) (by decide)
  simp only [Nat.reduceAdd] at w00 w01 w02 w11 w03 w12 w13 w22 w23 w33
  generalize C (pew t 0) = e0 at *
  generalize C (pew t 1) = e1 at *
  generalize C (pew t 2) = e2 at *
  generalize C (pew t 3) = e3 at *
  rw [← w00, ← w01, ← w23, ← w33]
  linear_combination (S a 0 64 * S b 128 64 + S a 128 64 * S b 0 64) * w02 + S a 64 64 * S b 64 64 * w11 +
    (S a 0 64 * S b 192 64 + S a 192 64 * S b 0 64) * w03 + (S a 64 64 * S b 128 64 + S a 128 64 * S b 64 64) * w12 +
    (S a 64 64 * S b 192 64 + S a 192 64 * S b 64 64) * w13 + S a 128 64 * S b 128 64 * w22

/-- Coefficient `i` of block `k` of the product, as a number. -/
noncomputable def cc (a b : List R16) (k i : Nat) : Int := ((cpoly a b k).coeff i).toNat

theorem u16_cc (a b : List R16) (k i : Nat) : u16 (cc a b k i) = (cpoly a b k).coeff i := u16_toNat _

theorem vC_prod (a b : List R16) {t i : Nat} (ht : t < 7) (hi : i < 128) : vC a b (pV t i) ≡
    ((pvP t).getD 0 0 : Nat) * cc a b 0 i + ((pvP t).getD 1 0 : Nat) * cc a b 1 i + ((pvP t).getD 2 0 : Nat) * cc a b 2 i +
    ((pvP t).getD 3 0 : Nat) * cc a b 3 i + ((pvP t).getD 4 0 : Nat) * cc a b 4 i + ((pvP t).getD 5 0 : Nat) * cc a b 5 i +
    ((pvP t).getD 6 0 : Nat) * cc a b 6 i [ZMOD 65536] := by
  rw [← u16_modEq, pV_eq, vC_lt (by omega), vA, if_neg (by omega), if_neg (by omega),
    show (1024 + 128 * t + i - 1024) / 128 = t by omega, show (1024 + 128 * t + i - 1024) % 128 = i by omega, u16_toNat, opP_mul a b ht]
  simp only [coeff_add, coeff_C_mul, u16_add, u16_mul, u16_cc]
  rfl

/-- The blocks of the result. -/
theorem blkForm_val (a b : List R16) {k i : Nat} (hk : k < 8) (hi : i < 128) : lval (vC a b) (blkForm k i) ≡ cc a b k i [ZMOD 8192] := by
  have g (t : Nat) (ht : t < 7) := vC_prod a b ht hi
  have g0 := g 0 (by decide)
  have g1 := g 1 (by decide)
  have g2 := g 2 (by decide)
  have g3 := g 3 (by decide)
  have g4 := g 4 (by decide)
  have g5 := g 5 (by decide)
  have g6 := g 6 (by decide)
  simp only [pvP, List.getD_cons_zero, List.getD_cons_succ] at g0 g1 g2 g3 g4 g5 g6
  push_cast at g0 g1 g2 g3 g4 g5 g6
  have := interp (vC_shifts a b) hi (c0 := cc a b 0 i) (c1 := cc a b 1 i) (c2 := cc a b 2 i) (c3 := cc a b 3 i) (c4 := cc a b 4 i)
    (c5 := cc a b 5 i) (c6 := cc a b 6 i) (g0.trans (ModEq.of_eq (by ring))) (g1.trans (ModEq.of_eq (by ring)))
    (g2.trans (Int.modEq_iff_dvd.mpr ⟨-(cc a b 1 i + cc a b 3 i + cc a b 5 i), by ring⟩)) (g3.trans (ModEq.of_eq (by ring)))
    (g4.trans (Int.modEq_iff_dvd.mpr ⟨-(cc a b 1 i + cc a b 3 i + cc a b 5 i), by ring⟩)) (g5.trans (ModEq.of_eq (by ring)))
    (g6.trans (ModEq.of_eq (by ring)))
  obtain ⟨k0, k1, k2, k3, k4, k5, k6⟩ := this
  match k, hk with
  | 0, _ => exact k0
  | 1, _ => exact k1
  | 2, _ => exact k2
  | 3, _ => exact k3
  | 4, _ => exact k4
  | 5, _ => exact k5
  | 6, _ => exact k6
  | 7, _ =>
    apply ModEq.of_eq
    show (0 : Int) = (((0 : R16[X]).coeff i).toNat : Int)
    rw [coeff_zero]
    rfl

theorem toNat_add8192 (x y : R16) : ((x + y).toNat : Int) ≡ x.toNat + y.toNat [ZMOD 8192] := by
  rw [BitVec.toNat_add]
  show _ % _ = _ % _
  push_cast
  omega

/-- The coefficients of the result. -/
theorem presForm_val (a b : List R16) {n : Nat} (hn : n < 511) :
    lval (vC a b) (presForm (n / 64) (n % 64)) ≡ ((S a 0 256 * S b 0 256).coeff n).toNat [ZMOD 8192] := by
  have hp := prod_block_coeff a b (n / 64) (n % 64) (by omega) (by omega)
  rw [show 64 * (n / 64) + n % 64 = n by omega] at hp
  rw [hp]
  have hr : n % 64 < 64 := by omega
  have hk : n / 64 < 8 := by omega
  generalize n / 64 = k at *
  generalize n % 64 = r at *
  unfold presForm
  refine ((lval_padd _ _).of_dvd (by norm_num)).trans (Int.ModEq.trans (Int.ModEq.add (blkForm_val a b hk (by omega)) ?_) (toNat_add8192 _ _).symm)
  split
  · rename_i hc
    rw [Bool.and_eq_true] at hc
    have h1 : 1 ≤ k := Nat.le_of_ble_eq_true hc.1
    rw [if_pos h1]
    exact blkForm_val a b (k := k - 1) (i := r + 64) (by omega) (by omega)
  · rename_i hc
    apply ModEq.of_eq
    rw [lval_nil]
    split
    · rename_i h1
      have : ¬ r < 63 := fun h2 => by
        rw [Nat.ble_eq_true_of_le h1, show Nat.blt r 63 = true from Nat.ble_eq_true_of_le h2] at hc
        cases hc
      rw [show (cpoly a b (k - 1)).coeff (r + 64) = 0 from Deg.cpoly a b (k - 1) (r + 64) (by omega)]
      rfl
    · rfl

open Spec in
theorem wideMul_coeff (a b : List R16) (n : Nat) : u16 (wideMul (toP a) (toP b) n) = (S a 0 256 * S b 0 256).coeff n := by
  have su (f : Fin 256 → Int) : u16 (∑ i, f i) = ∑ i, u16 (f i) := by
    have : ∀ t : Finset (Fin 256), u16 (∑ i ∈ t, f i) = ∑ i ∈ t, u16 (f i) := by
      intro t
      induction t using Finset.induction_on with
      | empty => simp [u16_zero]
      | insert i t hi ih => rw [Finset.sum_insert hi, Finset.sum_insert hi, u16_add, ih]
    exact this Finset.univ
  have e : S a 0 256 * S b 0 256 = ∑ i ∈ Finset.range 256, C (a.getD i 0) * X ^ i * S b 0 256 := by
    rw [← Finset.sum_mul, S]
    simp only [Nat.zero_add]
  rw [e, finsetSum_coeff, wideMul, su, Finset.sum_range]
  refine Finset.sum_congr rfl fun i _ => ?_
  rw [su, mul_assoc, coeff_C_mul, coeff_X_pow_mul', S_coeff]
  by_cases h : i.val ≤ n
  · rw [if_pos h]
    by_cases h2 : n - i.val < 256
    · rw [if_pos h2, Finset.sum_eq_single (⟨n - i.val, h2⟩ : Fin 256)]
      · rw [if_pos (by simp only; omega), u16_mul]
        simp only [toP]
        rw [u16_toNat, u16_toNat, Nat.zero_add]
      · intro j _ hj
        rw [if_neg (fun e => hj (Fin.ext (by simp only; omega))), u16_zero]
      · intro hh
        exact absurd (Finset.mem_univ _) hh
    · rw [if_neg h2, mul_zero]
      refine Finset.sum_eq_zero fun j _ => ?_
      rw [if_neg (by omega), u16_zero]
  · rw [if_neg h, mul_zero]
    refine Finset.sum_eq_zero fun j _ => ?_
    rw [if_neg (by omega), u16_zero]

/-! ### The run -/

theorem pchkVar_ok {v : Nat → Int} {base i : Nat} {h : BitVec 16} {k : PH} (hc : pchkVar base i k = true) (hk : PRH v h k) :
    (h.toNat : Int) ≡ v (base + i) [ZMOD 65536] := by
  cases k <;> simp only [pchkVar, Bool.false_eq_true] at hc
  rename_i l
  have hk : (h.toNat : Int) ≡ lval v l [ZMOD 65536] := hk
  rw [LF.eq_eq hc, lval_cons, lval_nil, Int.add_zero] at hk
  simpa using hk

theorem pchkRes_ok {v : Nat → Int} {i : Nat} {h : BitVec 16} {k : PH} (hc : pchkRes i k = true) (hk : PRH v h k) :
    (h.toNat : Int) ≡ lval v (presForm (i / 64) (i % 64)) [ZMOD 65536] := by
  cases k <;> simp only [pchkRes, Bool.false_eq_true] at hc
  rename_i l
  have hk : (h.toNat : Int) ≡ lval v l [ZMOD 65536] := hk
  rw [LF.eq_eq hc] at hk
  exact hk

open Spec in
/-- The complete behaviour of `polymul_asm`. -/
theorem polymul_run (g : Reg → CVal) (hg : ∀ r, g r ≠ .undef) (r : List (Cell (BitVec 16))) (a b : List (BitVec 16))
    (stk : List (Cell (BitVec 16))) (hr : r.length = 511) (ha : a.length = 256) (hb : b.length = 256) (hs : stk.length = 1896) :
    ∃ s r' stk', polymulF conc (polymulStart g r a b stk) = some s ∧ s.mem = [halves r', halves a, halves b, stk'] ∧
      r'.length = 511 ∧ (∀ n, n < 511 → ((r'.getD n 0).toNat : Int) ≡ wideMul (toP a) (toP b) n [ZMOD 8192]) ∧
      s.pc = .a (.code 99) ∧ s.sp = .a (.ptr 3 3792) ∧
      s.r4 = g .r4 ∧ s.r5 = g .r5 ∧ s.r6 = g .r6 ∧ s.r7 = g .r7 ∧ s.r8 = g .r8 ∧ s.r9 = g .r9 ∧ s.sl = g .sl ∧ s.fp = g .fp := by
  have hc := polymulCheck_ok
  unfold polymulCheck at hc
  cases hk : polymulL polymulK with
  | none => simp [hk] at hc
  | some s' =>
  simp only [hk] at hc
  let v := vC a b
  let R : Sim pdom := pSim v (vC_shifts a b)
  let m0 : conc.M := (polymulStart g r a b stk).mem
  have hkn (k : Nat) : regEnv3 g k ≠ .undef := by
    unfold regEnv3
    split
    · exact hg _
    · exact regEnv_known hg _
  let X := Ctx.plain (regEnv3 g) hkn m0
  have arr {c : List (BitVec 16)} {ob base : Nat} (h1 : (cmem m0)[ob]? = some (halves c)) (hn : c.length = 256)
      (hf : ∀ i, i < 256 → v (base + i) = (c.getD i 0).toNat) {i : Nat} (hi : i < 256) :
      X.dom ob i ∧ ∃ d, conc.rd X.m0 (X.ob ob) (X.off ob + i) = some d ∧ R.RC X d (.half (.lin [(base + i, 1)])) := by
    refine ⟨trivial, .half (c.getD i 0), ?_, _, rfl, ?_⟩
    · show conc.rd m0 ob (0 + i) = _
      rw [conc_rd h1, Nat.zero_add]
      exact getElem?_halves (by omega)
    · apply ModEq.of_eq
      rw [lval_cons, lval_nil, hf i hi]
      simp
  have va (i : Nat) (hi : i < 256) : v (0 + i) = (a.getD i 0).toNat := by
    rw [Nat.zero_add]
    show vC a b i = _
    rw [vC_lt (by omega), vA, if_pos hi]
  have vb (i : Nat) (hi : i < 256) : v (256 + i) = (b.getD i 0).toNat := by
    show vC a b (256 + i) = _
    rw [vC_lt (by omega), vA, if_neg (by omega), if_pos (by omega), Nat.add_sub_cancel_left]
  have any {c : List (Cell (BitVec 16))} {ob n : Nat} (h1 : (cmem m0)[ob]? = some c) (hn : c.length = n) {i : Nat} (hi : i < n) :
      X.dom ob i ∧ ∃ d, conc.rd X.m0 (X.ob ob) (X.off ob + i) = some d ∧ R.RC X d .undef := by
    refine ⟨trivial, c[i], ?_, ?_⟩
    · show conc.rd m0 ob (0 + i) = _
      rw [conc_rd (c := c) h1, Nat.zero_add]
      exact List.getElem?_eq_getElem (by omega)
    · cases c[i] <;> trivial
  have hm : R.RM X m0 polymulK.mem := by
    refine ⟨rfl, fun ob i c' hcc => ?_, fun _ _ _ => rfl⟩
    obtain ⟨p, hp, hi, rfl⟩ := rd_kmemOf (H := PH) (l := polymulObj) hcc
    match ob with
    | 0 => cases hp; exact any (ob := 0) rfl hr hi
    | 1 =>
      cases hp
      have := arr (base := 0) (ob := 1) rfl ha va hi
      rw [Nat.zero_add] at this
      exact this
    | 2 => cases hp; exact arr (base := 256) (ob := 2) rfl hb vb hi
    | 3 => cases hp; exact any (ob := 3) rfl hs hi
    | n + 4 => simp [polymulObj] at hp
  have h0 : R.RS X (polymulStart g r a b stk) polymulK := by
    refine ⟨fun r => ?_, hm, FlR.refl _⟩
    cases r <;> try rfl
    show (Val.a _ : CVal) = _
    rw [hs]
    rfl
  have hF : ∀ k, FSim R X ((fun | 0 => mulF conc | _ => fun _ => none : Nat → State conc → Option (State conc)) k)
      ((fun | 0 => karaP | _ => fun _ => none : Nat → State pdom → Option (State pdom)) k) := by
    intro k
    match k with
    | 0 => exact karaP_sim
    | n + 1 => exact fsim_none _
  obtain ⟨s, e1, e2⟩ := run_sim hF 0 polymul_asm _ _ _ h0 hk
  unfold polymulFinal at hc
  simp only [Bool.and_eq_true] at hc
  obtain ⟨c0, c1, c2, c3, c4, c5, -⟩ := hc
  have get {c : List (Cell (BitVec 16))} {ob n : Nat} {f : Nat → PH → Bool} (h1 : (cmem m0)[ob]? = some c) (hn : c.length = n)
      (hf : KM.allH s'.mem ob f n = true) := array_of e2.mem.len (ob := ob) (n := n) h1 hn
        (P := fun i x => ∃ k, f i k = true ∧ R.RH x k) fun i hi => by
          obtain ⟨k, h1, h2⟩ := KM.allH_rd hf hi
          obtain ⟨-, c, h3, x, rfl, h4⟩ := e2.mem.rd ob i _ h1
          rw [show X.off ob + i = i from Nat.zero_add i] at h3
          exact ⟨x, h3, k, h2, h4⟩
  obtain ⟨r', n0, l0, hr'⟩ := get rfl hr c0
  obtain ⟨a', n1, l1, ha'⟩ := get rfl ((length_halves a).trans ha) c1
  obtain ⟨b', n2, l2, hb'⟩ := get rfl ((length_halves b).trans hb) c2
  have hlen : (cmem s.mem).length = 4 := by
    have := congrArg List.length e2.mem.len
    exact (List.length_map (as := cmem s.mem) List.length).symm.trans this
  obtain ⟨x0, x1, x2, x3, hx⟩ := length4 hlen
  rw [hx] at n0 n1 n2
  simp only [List.getElem?_cons_zero, List.getElem?_cons_succ, Option.some.injEq] at n0 n1 n2
  subst n0 n1 n2
  have ea : a' = a := list_ext l1 ha fun i hi => by
    obtain ⟨k, f1, f2⟩ := ha' i hi
    have := pchkVar_ok f1 f2
    rw [va i hi] at this
    exact toNat_inj this
  have eb : b' = b := list_ext l2 hb fun i hi => by
    obtain ⟨k, f1, f2⟩ := hb' i hi
    have := pchkVar_ok f1 f2
    rw [vb i hi] at this
    exact toNat_inj this
  subst ea eb
  refine ⟨s, r', x3, e1, hx, l0, fun n hn => ?_, ?_, ?_, ?_⟩
  · obtain ⟨kk, f1, f2⟩ := hr' n hn
    have f3 := pchkRes_ok f1 f2
    refine ((f3.of_dvd (by norm_num)).trans (presForm_val a' b' hn)).trans ?_
    refine Int.ModEq.of_dvd (show (8192 : Int) ∣ 65536 by norm_num) ?_
    rw [← u16_modEq, u16_toNat, wideMul_coeff]
  · have := e2.reg .pc
    rw [show s'.get .pc = _ from isC_eq c4] at this
    exact this
  · have := e2.reg .sp
    rw [show s'.get .sp = _ from isP_eq c3] at this
    exact this
  · unfold saved at c5
    simp only [Bool.and_eq_true] at c5
    obtain ⟨⟨⟨⟨⟨⟨⟨h4, h5⟩, h6⟩, h7⟩, h8⟩, h9⟩, h10⟩, h11⟩ := c5
    have key (r : Reg) (n : Nat) (hr : isO (s'.get r) n = true) : s.get r = regEnv3 g n := by
      have := e2.reg r
      rw [isO_eq hr] at this
      exact this
    exact ⟨key .r4 4 h4, key .r5 5 h5, key .r6 6 h6, key .r7 7 h7, key .r8 8 h8, key .r9 9 h9, key .sl 10 h10, key .fp 11 h11⟩

end Saber.Arm
