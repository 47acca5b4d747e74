import Verif.Proof.Arm.LSim
import Verif.Proof.Arm.PDom
/-!
# The machine follows the symbolic machine of linear forms modulo `2^32`
-/
namespace Saber.Arm

section
variable {v : Nat → Int}

theorem mod32 (n : Nat) : ((n.mod 4294967296 : Nat) : Int) ≡ n [ZMOD 4294967296] := by
  show ((n % 4294967296 : Nat) : Int) ≡ n [ZMOD 4294967296]
  rw [Int.natCast_mod]
  exact Int.mod_modEq _ _

theorem to16 {x y : Int} (h : x ≡ y [ZMOD 4294967296]) : x ≡ y [ZMOD 65536] := h.of_dvd (by norm_num)

theorem lval_pmergeF {w c : Nat} {f : LF → LF} {z : Int} (hf : ∀ b, lval v (f b) ≡ z + lval v b [ZMOD 4294967296]) (b : LF) :
    lval v (pmergeF w c f b) ≡ c * v w + z + lval v b [ZMOD 4294967296] := by
  induction b with
  | nil =>
    rw [pmergeF, lval_cons, lval_nil, Int.add_assoc]
    exact (hf []).add_left _
  | cons p b ih =>
    obtain ⟨u, d⟩ := p
    rw [pmergeF]
    split
    · rw [lval_cons, Int.add_assoc]
      exact (hf _).add_left _
    · split
      · rename_i h
        have h := Nat.beq_eq.mp h
        subst h
        rw [lval_consF, lval_cons]
        have := ((mod32 (c.add d)).mul_right (v w)).add (hf b)
        refine this.trans (ModEq.of_eq ?_)
        rw [show ((c.add d : Nat) : Int) = c + d from Int.natCast_add c d]
        ring
      · rw [lval_cons, lval_cons]
        refine (ih.add_left _).trans (ModEq.of_eq ?_)
        ring

theorem lval_padd (a b : LF) : lval v (a.padd b) ≡ lval v a + lval v b [ZMOD 4294967296] := by
  induction a generalizing b with
  | nil => rw [LF.padd, lval_nil, Int.zero_add]
  | cons p a ih =>
    rw [LF.padd, lval_cons]
    exact lval_pmergeF (fun b => ih b) b

theorem lval_pscale (n : Nat) (a : LF) : lval v (a.pscale n) ≡ n * lval v a [ZMOD 4294967296] := by
  induction a with
  | nil => rw [LF.pscale, lval_nil, Int.mul_zero]
  | cons p a ih =>
    rw [LF.pscale, lval_consF, lval_cons]
    refine (((mod32 (p.2.mul n)).mul_right (v p.1)).add ih).trans (ModEq.of_eq ?_)
    rw [show ((p.2.mul n : Nat) : Int) = p.2 * n from Int.natCast_mul p.2 n]
    ring

theorem PH.force_eq {α : Type} (h : PH) (k : PH → α) : h.force k = k h := by
  cases h <;> simp only [PH.force, forceN_eq, LF.force_eq]

theorem PW.force_eq {α : Type} (w : PW) (k : PW → α) : w.force k = k w := by
  cases w <;> simp only [PW.force, forceN_eq, PH.force_eq, LF.force_eq]

/-- The products are halfwords, and the variables for the shifts have the values of the shifts. -/
structure Shifts (v : Nat → Int) : Prop where
  prod : ∀ n, 1024 ≤ n → n < 1920 → 0 ≤ v n ∧ v n < 65536
  shr : ∀ j i, j < 5 → i < 128 → v (qV j i) = lval v (qForm j i) % 4294967296 / 2 ^ qSh j

/-- What a symbolic halfword says about a halfword. -/
def PRH (v : Nat → Int) (h : BitVec 16) : PH → Prop
  | .lin l => (h.toNat : Int) ≡ lval v l [ZMOD 65536]
  | .c n => h.toNat = n
  | .unk => True

/-- What a symbolic word says about a word. -/
def PRW (v : Nat → Int) (x : BitVec 32) : PW → Prop
  | .hh l h => PRH v (clo x) l ∧ PRH v (chi x) h
  | .f16 l => (x.toNat : Int) ≡ lval v l [ZMOD 65536]
  | .f32 l => (x.toNat : Int) ≡ lval v l [ZMOD 4294967296]
  | .cst n => x.toNat = n

theorem PRH.add {a b : BitVec 16} {a' b' : PH} (ha : PRH v a a') (hb : PRH v b b') : PRH v (a + b) (a'.add b') := by
  unfold PH.add
  split
  · have e : ((a + b).toNat : Int) ≡ a.toNat + b.toNat [ZMOD 65536] := by
      rw [BitVec.toNat_add, Int.natCast_mod, Int.natCast_add]
      exact Int.mod_modEq _ _
    exact e.trans ((Int.ModEq.add ha hb).trans (to16 (lval_padd _ _)).symm)
  · trivial

theorem PRH.neg {a : BitVec 16} {a' : PH} (ha : PRH v a a') : PRH v (-a) a'.neg := by
  unfold PH.neg
  split
  · rename_i l
    have e : ((-a).toNat : Int) ≡ 4294967295 * a.toNat [ZMOD 65536] := by
      rw [BitVec.toNat_neg]
      have := a.isLt
      show _ % _ = _ % _
      omega
    refine e.trans (Int.ModEq.trans ?_ (to16 (lval_pscale _ _)).symm)
    exact Int.ModEq.mul_left _ ha
  · trivial

theorem clo_mod (x : BitVec 32) : ((clo x).toNat : Int) ≡ x.toNat [ZMOD 65536] := by
  rw [clo_toNat, Int.natCast_mod]
  exact Int.mod_modEq _ _

theorem PRW.lo {x : BitVec 32} {w : PW} (h : PRW v x w) : PRH v (clo x) w.lo := by
  cases w with
  | hh l k => exact h.1
  | f16 l => exact (clo_mod x).trans h
  | f32 l => exact (clo_mod x).trans (to16 h)
  | cst n =>
    have h : x.toNat = n := h
    subst h
    exact clo_toNat x

theorem PRW.hi {x : BitVec 32} {w : PW} (h : PRW v x w) : PRH v (chi x) w.hi := by
  cases w with
  | hh l k => exact h.2
  | f16 l => trivial
  | f32 l => trivial
  | cst n =>
    have h : x.toNat = n := h
    subst h
    show (chi x).toNat = x.toNat / 65536 % 65536
    rw [chi_toNat]
    have := x.isLt
    omega

theorem append_toNat (h l : BitVec 16) : (h ++ l).toNat = h.toNat * 65536 + l.toNat := by
  rw [BitVec.toNat_append, ← Nat.shiftLeft_add_eq_or_of_lt l.isLt, Nat.shiftLeft_eq]

theorem isProd_eq {l : LF} (h : isProd l = true) : ∃ n, l = [(n, 1)] ∧ 1024 ≤ n ∧ n < 1920 := by
  unfold isProd at h
  split at h
  · rename_i n c
    simp only [Bool.and_eq_true] at h
    have h1 : c = 1 := Nat.beq_eq.mp h.1
    exact ⟨n, by rw [h1], Nat.le_of_ble_eq_true h.2.1, Nat.le_of_ble_eq_true h.2.2⟩
  · cases h

theorem pjoin_ok (hv : Shifts v) {l h : BitVec 16} {l' h' : PH} (hl : PRH v l l') (hh : PRH v h h') : PRW v (h ++ l) (pjoin l' h') := by
  unfold pjoin
  split
  · rename_i f
    have e : h.toNat = 0 := hh
    have hl : (l.toNat : Int) ≡ lval v f [ZMOD 65536] := hl
    split
    · rename_i hp
      obtain ⟨n, rfl, h1, h2⟩ := isProd_eq hp
      have := hv.prod n h1 h2
      have := l.isLt
      show ((h ++ l).toNat : Int) ≡ _ [ZMOD 4294967296]
      rw [append_toNat, e]
      rw [lval_cons, lval_nil] at hl ⊢
      have hl : (l.toNat : Int) % 65536 = (((1 : Nat) : Int) * v n + 0) % 65536 := hl
      apply ModEq.of_eq
      push_cast at hl ⊢
      omega
    · show ((h ++ l).toNat : Int) ≡ _ [ZMOD 65536]
      rw [append_toNat, e, Nat.zero_mul, Nat.zero_add]
      exact hl
  · exact ⟨by rw [clo_append]; exact hl, by rw [chi_append]; exact hh⟩

theorem qTry_ok {j n w : Nat} {l : LF} {k : Option Nat} {u : Nat} (hj : j < 5) (h : qTry j n w l k = some u) :
    (∃ i, i < 128 ∧ n = qSh j ∧ l = qForm j i ∧ u = qV j i) ∨ k = some u := by
  unfold qTry at h
  split at h
  · rename_i hc
    simp only [Bool.and_eq_true] at hc
    split at h
    · rename_i he
      refine Or.inl ⟨w - qBase j, ?_, Nat.beq_eq.mp hc.1, LF.eq_eq he, (Option.some.inj h).symm⟩
      have h1 : qBase j ≤ w := Nat.le_of_ble_eq_true hc.2.1
      have h2 : w < qBase j + 128 := Nat.le_of_ble_eq_true hc.2.2
      omega
    · exact Or.inr h
  · exact Or.inr h

theorem qIx_ok {n : Nat} {l : LF} {u : Nat} (h : qIx n l = some u) : ∃ j i, j < 5 ∧ i < 128 ∧ n = qSh j ∧ l = qForm j i ∧ u = qV j i := by
  unfold qIx at h
  split at h
  · cases h
  · rcases qTry_ok (by decide) h with ⟨i, h⟩ | h
    · exact ⟨0, i, by decide, h⟩
    rcases qTry_ok (by decide) h with ⟨i, h⟩ | h
    · exact ⟨1, i, by decide, h⟩
    rcases qTry_ok (by decide) h with ⟨i, h⟩ | h
    · exact ⟨2, i, by decide, h⟩
    rcases qTry_ok (by decide) h with ⟨i, h⟩ | h
    · exact ⟨3, i, by decide, h⟩
    rcases qTry_ok (by decide) h with ⟨i, h⟩ | h
    · exact ⟨4, i, by decide, h⟩
    cases h

theorem pop1_ok (hv : Shifts v) (op : Op1) {x : BitVec 32} {w : PW} (h : PRW v x w) : PRW v (cop1 op x) (pop1 op w) := by
  have lsl (n : Nat) : ((x <<< n).toNat : Int) ≡ (Nat.pow 2 n : Nat) * x.toNat [ZMOD 4294967296] := by
    rw [lsl_toNat, Int.natCast_mod, Nat.mul_comm, Int.natCast_mul]
    exact Int.mod_modEq _ _
  unfold pop1
  split
  · exact h
  · rename_i n l
    exact (lsl n).trans ((Int.ModEq.mul_left _ h).trans (lval_pscale _ _).symm)
  · rename_i n l
    exact (to16 (lsl n)).trans ((Int.ModEq.mul_left _ h).trans (to16 (lval_pscale _ _)).symm)
  · rename_i n l
    split
    · rename_i u hu
      obtain ⟨j, i, hj, hi, rfl, rfl, rfl⟩ := qIx_ok hu
      show ((x >>> qSh j).toNat : Int) ≡ lval v [(qV j i, 1)] [ZMOD 4294967296]
      rw [lval_cons, lval_nil, hv.shr j i hj hi]
      have h : (x.toNat : Int) % 4294967296 = lval v (qForm j i) % 4294967296 := h
      rw [← h, lsr_toNat]
      have := x.isLt
      apply ModEq.of_eq
      rw [Int.emod_eq_of_lt (by omega) (by omega)]
      push_cast
      omega
    · exact ⟨trivial, trivial⟩
  · exact ⟨trivial, trivial⟩

theorem padd_ok {x y : BitVec 32} {a b : PW} (hx : PRW v x a) (hy : PRW v y b) : PRW v (x + y) (padd a b) := by
  have e : ((x + y).toNat : Int) ≡ x.toNat + y.toNat [ZMOD 4294967296] := by
    rw [BitVec.toNat_add, Int.natCast_mod, Int.natCast_add]
    exact Int.mod_modEq _ _
  unfold padd
  split
  · exact e.trans ((Int.ModEq.add hx hy).trans (lval_padd _ _).symm)
  · exact (to16 e).trans ((Int.ModEq.add hx (to16 hy)).trans (to16 (lval_padd _ _)).symm)
  · exact (to16 e).trans ((Int.ModEq.add (to16 hx) hy).trans (to16 (lval_padd _ _)).symm)
  · exact (to16 e).trans ((Int.ModEq.add hx hy).trans (to16 (lval_padd _ _)).symm)
  · exact ⟨trivial, trivial⟩

theorem pmul_ok {x y : BitVec 32} {a : PW} {n : Nat} (hx : PRW v x a) (hy : (y.toNat : Int) ≡ n * x.toNat [ZMOD 4294967296]) :
    PRW v y (pmul a n) := by
  unfold pmul
  split
  · exact hy.trans ((Int.ModEq.mul_left _ hx).trans (lval_pscale _ _).symm)
  · exact (to16 hy).trans ((Int.ModEq.mul_left _ hx).trans (to16 (lval_pscale _ _)).symm)
  · exact ⟨trivial, trivial⟩

theorem pop2_ok (op : Op2) {x x' : BitVec 32} {w w' : PW} (h : PRW v x w) (h' : PRW v x' w') : PRW v (cop2 op x x') (pop2 op w w') := by
  unfold pop2
  split
  · exact padd_ok h h'
  · show PRW v (x - x') _
    rw [sub_eq_add_neg]
    refine padd_ok h (pmul_ok h' ?_)
    rw [BitVec.toNat_neg]
    have := x'.isLt
    show _ % _ = _ % _
    push_cast
    omega
  · rename_i n
    have h' : x'.toNat = n := h'
    subst h'
    refine pmul_ok h ?_
    show ((x * x').toNat : Int) ≡ _ [ZMOD _]
    rw [BitVec.toNat_mul, Int.natCast_mod, Int.natCast_mul, Int.mul_comm]
    exact Int.mod_modEq _ _
  · exact ⟨by simp only [cop2]; rw [clo_append]; exact h.lo.add h'.lo, by simp only [cop2]; rw [chi_append]; exact h.hi.add h'.hi⟩
  · refine ⟨?_, ?_⟩
    · simp only [cop2]; rw [clo_append, sub_eq_add_neg]; exact h.lo.add h'.lo.neg
    · simp only [cop2]; rw [chi_append, sub_eq_add_neg]; exact h.hi.add h'.hi.neg
  · exact ⟨trivial, trivial⟩

/-- The machine follows the symbolic machine. -/
def pSim (v : Nat → Int) (hv : Shifts v) : Sim pdom where
  RH := PRH v
  RW := PRW v
  lo h := h.lo
  hi h := h.hi
  join h h' := pjoin_ok hv h h'
  zero := rfl
  const n := BitVec.toNat_ofNat _ _
  known {x w n} h e := by
    cases w with
    | cst k =>
      have : some k = some n := e
      simp only [Option.some.injEq] at this
      subst this
      exact h
    | _ => simp [pdom] at e
  op1 op _ _ h := pop1_ok hv op h
  op2 op _ _ _ _ h h' := pop2_ok op h h'
  op3 _ _ _ _ _ _ _ _ _ _ := ⟨trivial, trivial⟩
  wr {m o i c m'} h := by
    obtain ⟨m'', e1, e2, e3⟩ := KM.wrK_rd m o i c _ _ h
    cases e1
    exact ⟨e2, e3⟩
  force w k := PW.force_eq w k

end

end Saber.Arm
