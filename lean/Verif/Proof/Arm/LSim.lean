import Verif.Proof.Arm.KSim
import Verif.Proof.Arm.LDom
import Mathlib.Data.Int.ModEq
import Mathlib.Tactic.IntervalCases
/-!
# The machine follows the symbolic machine of linear forms
-/
namespace Saber.Arm

/-- The value of a linear form. -/
def lval (v : Nat → Int) (l : LF) : Int := (l.map fun p => (p.2 : Int) * v p.1).sum

section
variable {v : Nat → Int}

theorem lval_nil : lval v [] = 0 := rfl
theorem lval_cons (p : Nat × Nat) (l : LF) : lval v (p :: l) = p.2 * v p.1 + lval v l := by simp [lval]

theorem lval_consF (w c : Nat) (l : LF) : lval v (consF w c l) = c * v w + lval v l := by
  cases c with
  | zero => simp [consF]
  | succ c => rw [consF, lval_cons]

theorem ModEq.of_eq {a b n : Int} (h : a = b) : a ≡ b [ZMOD n] := h ▸ Int.ModEq.refl a

theorem mod_natCast (n : Nat) : ((n.mod 65536 : Nat) : Int) ≡ n [ZMOD 65536] := by
  show ((n % 65536 : Nat) : Int) ≡ n [ZMOD 65536]
  rw [Int.natCast_mod]
  exact Int.mod_modEq _ _

theorem lval_mergeF {w c : Nat} {f : LF → LF} {z : Int} (hf : ∀ b, lval v (f b) ≡ z + lval v b [ZMOD 65536]) (b : LF) :
    lval v (mergeF w c f b) ≡ c * v w + z + lval v b [ZMOD 65536] := by
  induction b with
  | nil =>
    rw [mergeF, lval_cons, lval_nil, Int.add_assoc]
    exact (hf []).add_left _
  | cons p b ih =>
    obtain ⟨u, d⟩ := p
    rw [mergeF]
    split
    · rw [lval_cons, Int.add_assoc]
      exact (hf _).add_left _
    · split
      · rename_i h
        have h := Nat.beq_eq.mp h
        subst h
        rw [lval_consF, lval_cons]
        have := ((mod_natCast (c.add d)).mul_right (v w)).add (hf b)
        refine this.trans (ModEq.of_eq ?_)
        rw [show ((c.add d : Nat) : Int) = c + d from Int.natCast_add c d]
        ring
      · rw [lval_cons, lval_cons]
        refine (ih.add_left _).trans (ModEq.of_eq ?_)
        ring

theorem lval_add (a b : LF) : lval v (a.add b) ≡ lval v a + lval v b [ZMOD 65536] := by
  induction a generalizing b with
  | nil => rw [LF.add, lval_nil, Int.zero_add]
  | cons p a ih =>
    rw [LF.add, lval_cons]
    exact lval_mergeF (fun b => ih b) b

theorem lval_scale (n : Nat) (a : LF) : lval v (a.scale n) ≡ n * lval v a [ZMOD 65536] := by
  induction a with
  | nil => rw [LF.scale, lval_nil, Int.mul_zero]
  | cons p a ih =>
    rw [LF.scale, lval_consF, lval_cons]
    refine (((mod_natCast (p.2.mul n)).mul_right (v p.1)).add ih).trans (ModEq.of_eq ?_)
    rw [show ((p.2.mul n : Nat) : Int) = p.2 * n from Int.natCast_mul p.2 n]
    ring

theorem lval_quo {n : Nat} {a b : LF} (h : a.quo n = some b) : lval v a = n * lval v b := by
  induction a generalizing b with
  | nil => cases h; rfl
  | cons p a ih =>
    obtain ⟨w, c⟩ := p
    rw [LF.quo] at h
    split at h
    · rename_i hc
      have hc : c % n = 0 := Nat.beq_eq.mp hc
      split at h
      · rename_i l hl
        cases h
        rw [lval_cons, lval_cons, ih hl]
        have : (c : Int) = n * (c.div n : Nat) := by
          have : c = n * (c / n) := (Nat.mul_div_cancel' (Nat.dvd_of_mod_eq_zero hc)).symm
          rw [← Int.natCast_mul]
          exact congrArg _ this
        simp only
        rw [this]
        ring
      · cases h
    · cases h

theorem LF.eq_eq {a b : LF} (h : a.eq b = true) : a = b := by
  induction a generalizing b with
  | nil => cases b with
    | nil => rfl
    | cons q b => cases h
  | cons p a ih => cases b with
    | nil => cases h
    | cons q b =>
      rw [LF.eq, Bool.and_eq_true, Bool.and_eq_true] at h
      rw [ih h.2.2, show p = q from Prod.ext (Nat.beq_eq.mp h.1) (Nat.beq_eq.mp h.2.1)]

theorem LF.force_eq {α : Type} (l : LF) (k : LF → α) : l.force k = k l := by
  induction l generalizing k with
  | nil => rfl
  | cons p l ih => rw [LF.force, forceN_eq, forceN_eq, ih]

theorem LH.force_eq {α : Type} (h : LH) (k : LH → α) : h.force k = k h := by
  cases h <;> simp only [LH.force, forceN_eq, LF.force_eq]

theorem LW.force_eq {α : Type} (w : LW) (k : LW → α) : w.force k = k w := by
  cases w <;> simp only [LW.force, forceN_eq, LH.force_eq]

theorem minN_eq (a b : Nat) : minN a b = min a b := by
  unfold minN
  split
  · rename_i h
    exact (Nat.min_eq_left (Nat.le_of_ble_eq_true h)).symm
  · rename_i h
    have : ¬ a ≤ b := fun hh => by rw [Nat.ble_eq_true_of_le hh] at h; cases h
    exact (Nat.min_eq_right (by omega)).symm

/-- The bits lost in divisions by two. -/
structure Carries (v : Nat → Int) : Prop where
  lsr : ∀ i, i < 128 → v (8192 + i) = -(lval v (diffF i) / 65536)
  asr : ∀ i, i < 128 → v (9216 + i) = -(lval v (diffF i) / 65536) + lval v (diffF i) % 65536 / 32768

/-- What a symbolic halfword says about a halfword. -/
def LRH (v : Nat → Int) (h : BitVec 16) : LH → Prop
  | .lin k l => k ≤ 16 ∧ (h.toNat : Int) ≡ lval v l [ZMOD 2 ^ k]
  | .c n => h.toNat = n
  | .unk => True

theorem dvd16 {k : Nat} (h : k ≤ 16) : (2 ^ k : Int) ∣ 65536 := by
  rw [show (65536 : Int) = 2 ^ 16 by norm_num]
  exact pow_dvd_pow _ h

theorem LRH.add {a b : BitVec 16} {a' b' : LH} (ha : LRH v a a') (hb : LRH v b b') : LRH v (a + b) (a'.add b') := by
  have e : ((a + b).toNat : Int) ≡ a.toNat + b.toNat [ZMOD 65536] := by
    rw [BitVec.toNat_add, Int.natCast_mod, Int.natCast_add]
    exact Int.mod_modEq _ _
  unfold LH.add
  split
  · rename_i k l k' l'
    obtain ⟨h1, h2⟩ := ha
    obtain ⟨h3, h4⟩ := hb
    rw [minN_eq]
    refine ⟨by omega, ?_⟩
    have d := dvd16 (show min k k' ≤ 16 by omega)
    refine (e.of_dvd d).trans (((h2.of_dvd (pow_dvd_pow _ (Nat.min_le_left _ _))).add (h4.of_dvd (pow_dvd_pow _ (Nat.min_le_right _ _)))).trans
      ((lval_add l l').of_dvd d).symm)
  · have hb : b.toNat = 0 := hb
    rw [show b = 0 from BitVec.eq_of_toNat_eq hb, add_zero]
    exact ha
  · have ha : a.toNat = 0 := ha
    rw [show a = 0 from BitVec.eq_of_toNat_eq ha, zero_add]
    exact hb
  · rename_i m n
    have ha : a.toNat = m := ha
    have hb : b.toNat = n := hb
    subst ha hb
    exact BitVec.toNat_add a b
  · trivial

/-- A multiple of a halfword. -/
theorem LRH.scale {a b : BitVec 16} {a' : LH} (n : Nat) (ha : LRH v a a') (hb : b.toNat = a.toNat * n % 65536) : LRH v b (a'.scale n) := by
  cases a' with
  | lin k l =>
    obtain ⟨h1, h2⟩ := ha
    have e : (b.toNat : Int) ≡ n * a.toNat [ZMOD 65536] := by
      rw [hb, Int.natCast_mod, Int.natCast_mul, Int.mul_comm]
      exact Int.mod_modEq _ _
    have hg : gain k n ≤ 16 ∧ (2 ^ gain k n : Int) ∣ n * 2 ^ k := by
      unfold gain
      split
      · rename_i hn
        have hn : n % 2 = 0 := Nat.beq_eq.mp hn
        rw [minN_eq]
        refine ⟨by omega, ?_⟩
        obtain ⟨m, rfl⟩ := Nat.dvd_of_mod_eq_zero hn
        have : (2 ^ k.succ : Int) ∣ ((2 * m : Nat) : Int) * 2 ^ k := ⟨m, by rw [Nat.succ_eq_add_one, pow_succ]; push_cast; ring⟩
        exact (pow_dvd_pow _ (Nat.min_le_left _ _)).trans this
      · exact ⟨h1, ⟨n, by ring⟩⟩
    refine ⟨hg.1, (e.of_dvd (dvd16 hg.1)).trans (Int.ModEq.trans ?_ ((lval_scale n l).of_dvd (dvd16 hg.1)).symm)⟩
    exact (h2.mul_left' (c := (n : Int))).of_dvd hg.2
  | c m =>
    have ha : a.toNat = m := ha
    subst ha
    exact hb
  | unk => trivial

theorem LRH.sub {a b : BitVec 16} {a' b' : LH} (ha : LRH v a a') (hb : LRH v b b') : LRH v (a - b) (a'.sub b') := by
  have : LRH v (-b) (b'.scale 65535) := hb.scale 65535 (by
    rw [BitVec.toNat_neg]
    have := b.isLt
    omega)
  rw [sub_eq_add_neg]
  exact ha.add this

theorem LRH.mul {a b : BitVec 16} {a' b' : LH} (ha : LRH v a a') (hb : LRH v b b') : LRH v (a * b) (a'.mul b') := by
  unfold LH.mul
  split
  · rename_i n
    have hb : b.toNat = n := hb
    subst hb
    exact ha.scale _ (BitVec.toNat_mul a b)
  · trivial

/-- A halfword whose lower bits are those of a quotient. -/
theorem LRH.shr {a b : BitVec 16} {a' : LH} (n : Nat) (ha : LRH v a a') (hb : (b.toNat : Int) ≡ a.toNat / 2 ^ n [ZMOD 2 ^ (16 - n)]) :
    LRH v b (a'.shr n) := by
  unfold LH.shr
  split
  · rename_i k l
    obtain ⟨h1, h2⟩ := ha
    split
    · rename_i hk
      have hk : n ≤ k := Nat.le_of_ble_eq_true hk
      split
      · rename_i l' hl
        have hl := lval_quo (v := v) hl
        rw [show ((Nat.pow 2 n : Nat) : Int) = 2 ^ n by show ((2 ^ n : Nat) : Int) = _; push_cast; rfl] at hl
        refine ⟨show k - n ≤ 16 by omega, ?_⟩
        show (b.toNat : Int) ≡ lval v l' [ZMOD 2 ^ (k - n)]
        refine (hb.of_dvd (pow_dvd_pow _ (show k - n ≤ 16 - n by omega))).trans ?_
        rw [hl] at h2
        obtain ⟨t, ht⟩ := h2.symm.dvd
        have e : (a.toNat : Int) = 2 ^ n * (lval v l' + 2 ^ (k - n) * t) := by
          have : (2 : Int) ^ k = 2 ^ n * 2 ^ (k - n) := by rw [← pow_add]; congr 1; omega
          rw [this] at ht
          linarith
        rw [e, Int.mul_ediv_cancel_left _ (by positivity)]
        exact Int.modEq_iff_dvd.mpr ⟨-t, by ring⟩
      · trivial
    · trivial
  · trivial

theorem diffIx_eq {l : LF} {i : Nat} (h : l.diffIx = some i) : l = diffF i ∧ i < 128 := by
  unfold LF.diffIx at h
  split at h
  · cases h
  · rename_i w c l
    split at h
    · rename_i hc
      rw [Bool.and_eq_true, Bool.and_eq_true] at hc
      have h := Option.some.inj h
      subst h
      refine ⟨LF.eq_eq hc.2.2, ?_⟩
      have h1 : 1152 ≤ w := Nat.le_of_ble_eq_true hc.1
      have h2 : w < 1280 := Nat.le_of_ble_eq_true hc.2.1
      show w - 1152 < 128
      omega
    · cases h

/-- The same, when the lost bit is known. -/
theorem LRH.shrE {a b : BitVec 16} {a' : LH} (e n : Nat) (ha : LRH v a a') (hb : (b.toNat : Int) ≡ a.toNat / 2 ^ n [ZMOD 2 ^ (16 - n)])
    (he : n = 1 → ∀ i, i < 128 → (a.toNat : Int) ≡ lval v (diffF i) [ZMOD 65536] → (b.toNat : Int) ≡ lval v (halfF e i) [ZMOD 65536]) :
    LRH v b (a'.shrE e n) := by
  unfold LH.shrE
  split
  · rename_i k l
    split
    · rename_i hk
      rw [Bool.and_eq_true] at hk
      split
      · rename_i i hi
        obtain ⟨rfl, hlt⟩ := diffIx_eq hi
        have h16 : k = 16 := Nat.beq_eq.mp hk.2
        subst h16
        exact ⟨le_refl _, he (Nat.beq_eq.mp hk.1) i hlt ha.2⟩
      · exact ha.shr n hb
    · exact ha.shr n hb
  · exact ha.shr n hb

theorem LRH.low13 {a b : BitVec 16} {a' : LH} (ha : LRH v a a') (hb : b.toNat = a.toNat % 8192) : LRH v b a'.low13 := by
  unfold LH.low13
  split
  · rename_i k l
    obtain ⟨h1, h2⟩ := ha
    rw [minN_eq]
    refine ⟨by omega, Int.ModEq.trans ?_ (h2.of_dvd (pow_dvd_pow _ (Nat.min_le_left _ _)))⟩
    rw [hb, Int.natCast_mod]
    refine (Int.mod_modEq _ _).of_dvd ?_
    rw [show ((8192 : Nat) : Int) = 2 ^ 13 by norm_num]
    exact pow_dvd_pow _ (Nat.min_le_right _ _)
  · trivial

/-! ### Words -/

/-- What a symbolic word says about a word. -/
def LRW (v : Nat → Int) (x : BitVec 32) : LW → Prop
  | .hh l h => LRH v (clo x) l ∧ LRH v (chi x) h
  | .cst n => x.toNat = n

theorem clo_toNat (x : BitVec 32) : (clo x).toNat = x.toNat % 65536 := BitVec.toNat_setWidth _ _
theorem chi_toNat (x : BitVec 32) : (chi x).toNat = x.toNat / 65536 := by
  unfold chi
  rw [BitVec.toNat_setWidth, BitVec.toNat_ushiftRight, Nat.shiftRight_eq_div_pow]
  have := x.isLt
  omega

theorem LRW.lo {x : BitVec 32} {w : LW} (h : LRW v x w) : LRH v (clo x) w.lo := by
  cases w with
  | hh l k => exact h.1
  | cst n =>
    have h : x.toNat = n := h
    subst h
    exact clo_toNat x

theorem LRW.hi {x : BitVec 32} {w : LW} (h : LRW v x w) : LRH v (chi x) w.hi := by
  cases w with
  | hh l k => exact h.2
  | cst n =>
    have h : x.toNat = n := h
    subst h
    show (chi x).toNat = x.toNat / 65536 % 65536
    rw [chi_toNat]
    have := x.isLt
    omega

theorem lsl_toNat (x : BitVec 32) (n : Nat) : (x <<< n).toNat = x.toNat * 2 ^ n % 4294967296 := by
  rw [BitVec.toNat_shiftLeft, Nat.shiftLeft_eq]

theorem lsr_toNat (x : BitVec 32) (n : Nat) : (x >>> n).toNat = x.toNat / 2 ^ n := by
  rw [BitVec.toNat_ushiftRight, Nat.shiftRight_eq_div_pow]

theorem pow2_dvd {n m : Nat} (h : n ≤ m) : (2 : Nat) ^ n ∣ 2 ^ m := Nat.pow_dvd_pow 2 h

theorem clo_lsl_n (x : BitVec 32) (n : Nat) : (clo (x <<< n)).toNat = (clo x).toNat * 2 ^ n % 65536 := by
  rw [clo_toNat, clo_toNat, lsl_toNat, Nat.mod_mod_of_dvd _ (by norm_num : 65536 ∣ 4294967296), Nat.mod_mul_mod]

theorem chi_lsl_n (x : BitVec 32) (n : Nat) : (chi (x <<< (n + 16))).toNat = (clo x).toNat * 2 ^ n % 65536 := by
  rw [chi_toNat, clo_toNat, lsl_toNat, pow_add, ← Nat.mul_assoc, Nat.mod_mul_mod]
  have : ∀ y : Nat, y * 2 ^ 16 % 4294967296 / 65536 = y % 65536 := by omega
  rw [this]

theorem clo_lsl_16 (x : BitVec 32) (n : Nat) : (clo (x <<< (n + 16))).toNat = 0 := by
  rw [clo_lsl_n, pow_add, ← Nat.mul_assoc]
  norm_num

theorem chi_lsr_n (x : BitVec 32) (n : Nat) : (chi (x >>> n)).toNat = (chi x).toNat / 2 ^ n := by
  rw [chi_toNat, chi_toNat, lsr_toNat, Nat.div_div_eq_div_mul, Nat.div_div_eq_div_mul, Nat.mul_comm]

theorem clo_lsr_n (x : BitVec 32) {n : Nat} (hn : n ≤ 15) :
    ((clo (x >>> n)).toNat : Int) ≡ (clo x).toNat / 2 ^ n [ZMOD 2 ^ (16 - n)] := by
  rw [clo_toNat, clo_toNat, lsr_toNat]
  have := x.isLt
  show _ % _ = _ % _
  interval_cases n <;> norm_num <;> omega

theorem asr_toNat (x : BitVec 32) (n : Nat) : ((x.sshiftRight n).toNat : Int) = x.toInt / 2 ^ n % 4294967296 := by
  have h1 := BitVec.toInt_sshiftRight (x := x) (n := n)
  rw [Int.shiftRight_eq_div_pow] at h1
  have h2 := (x.sshiftRight n).isLt
  rw [BitVec.toInt_eq_toNat_cond] at h1
  push_cast at h1
  rw [← h1]
  split <;> omega

theorem clo_asr_n (x : BitVec 32) {n : Nat} (hn : n ≤ 15) :
    ((clo (x.sshiftRight (n + 16))).toNat : Int) ≡ (chi x).toNat / 2 ^ n [ZMOD 2 ^ (16 - n)] := by
  rw [clo_toNat, chi_toNat, Int.natCast_mod, asr_toNat, BitVec.toInt_eq_toNat_cond]
  have := x.isLt
  show _ % _ = _ % _
  interval_cases n <;> norm_num <;> split <;> omega

theorem clo_asr_17 (x : BitVec 32) :
    ((clo (x.sshiftRight 17)).toNat : Int) = (chi x).toNat / 2 + 32768 * ((chi x).toNat / 32768) := by
  rw [clo_toNat, chi_toNat, Int.natCast_mod, asr_toNat, BitVec.toInt_eq_toNat_cond]
  have := x.isLt
  norm_num
  split <;> omega

theorem halfF_val (e i : Nat) : lval v (halfF e i) = lval v (diffF i) / 2 + 32768 * v (e + i) := by
  rw [halfF, diffF]
  simp only [lval_cons, lval_nil]
  rw [show Nat.add e i = e + i from rfl]
  push_cast
  omega

theorem shrE_lsr (hv : Carries v) {a b : BitVec 16} {a' : LH} {n : Nat} (ha : LRH v a a')
    (hb : (b.toNat : Int) = a.toNat / 2 ^ n) : LRH v b (a'.shrE 8192 n) := by
  refine ha.shrE _ _ (ModEq.of_eq hb) fun hn i hi h => ?_
  subst hn
  rw [halfF_val, hv.lsr i hi]
  have := a.isLt
  have h : (a.toNat : Int) % 65536 = lval v (diffF i) % 65536 := h
  have e : lval v (diffF i) % 2 = 0 := by
    rw [diffF]
    simp only [lval_cons, lval_nil]
    push_cast
    omega
  rw [hb]
  apply ModEq.of_eq
  omega

theorem shrE_asr (hv : Carries v) {x : BitVec 32} {a' : LH} {n : Nat} (hn : n ≤ 15) (ha : LRH v (chi x) a') :
    LRH v (clo (x.sshiftRight (n + 16))) (a'.shrE 9216 n) := by
  refine ha.shrE _ _ (clo_asr_n x hn) fun hn i hi h => ?_
  subst hn
  rw [halfF_val, hv.asr i hi, clo_asr_17]
  have := (chi x).isLt
  have h : ((chi x).toNat : Int) % 65536 = lval v (diffF i) % 65536 := h
  have e : lval v (diffF i) % 2 = 0 := by
    rw [diffF]
    simp only [lval_cons, lval_nil]
    push_cast
    omega
  apply ModEq.of_eq
  omega

theorem lop1_ok (hv : Carries v) (op : Op1) {x : BitVec 32} {w : LW} (h : LRW v x w) : LRW v (cop1 op x) (lop1 op w) := by
  unfold lop1
  split
  · exact h
  · rename_i n y
    split
    · have h : x.toNat = y := h
      subst h
      exact lsl_toNat x n
    · exact ⟨trivial, trivial⟩
  · rename_i n l k
    split
    · exact ⟨h.1.scale _ (clo_lsl_n x n), trivial⟩
    · rename_i hn
      have hn : ¬ n ≤ 15 := fun hh => by rw [Nat.ble_eq_true_of_le hh] at hn; cases hn
      split
      · obtain ⟨m, rfl⟩ : ∃ m, n = m + 16 := ⟨n - 16, by omega⟩
        refine ⟨clo_lsl_16 x m, ?_⟩
        rw [show Nat.sub (m + 16) 16 = m from Nat.add_sub_cancel m 16]
        exact h.1.scale _ (chi_lsl_n x m)
      · exact ⟨trivial, trivial⟩
  · rename_i n l k
    split
    · rename_i hn
      have hn : n ≤ 15 := Nat.le_of_ble_eq_true hn
      have hc : ((chi (x >>> n)).toNat : Int) = (chi x).toNat / 2 ^ n := by
        rw [chi_lsr_n]
        push_cast
        rfl
      split
      · have h2 : (chi x).toNat = 0 := h.2
        refine ⟨shrE_lsr hv h.1 ?_, ?_⟩
        · show ((clo (x >>> n)).toNat : Int) = _
          rw [clo_toNat, clo_toNat, lsr_toNat]
          rw [chi_toNat] at h2
          have h3 : x.toNat < 65536 := by omega
          rw [Nat.mod_eq_of_lt h3, Nat.mod_eq_of_lt (Nat.lt_of_le_of_lt (Nat.div_le_self _ _) h3)]
          push_cast
          rfl
        · show (chi (x >>> n)).toNat = 0
          rw [chi_lsr_n, h2, Nat.zero_div]
      · exact ⟨h.1.shr n (clo_lsr_n x hn), shrE_lsr hv h.2 hc⟩
    · split
      · rename_i hn
        have hn : n = 16 := Nat.beq_eq.mp hn
        subst hn
        refine ⟨h.2, ?_⟩
        show (chi (x >>> 16)).toNat = 0
        rw [chi_lsr]
        rfl
      · exact ⟨trivial, trivial⟩
  · rename_i n l k
    split
    · rename_i hn
      rw [Bool.and_eq_true] at hn
      have h1 : 16 ≤ n := Nat.le_of_ble_eq_true hn.1
      have h2 : n ≤ 31 := Nat.le_of_ble_eq_true hn.2
      obtain ⟨m, rfl⟩ : ∃ m, n = m + 16 := ⟨n - 16, by omega⟩
      rw [show Nat.sub (m + 16) 16 = m from Nat.add_sub_cancel m 16]
      exact ⟨shrE_asr hv (by omega) h.2, trivial⟩
    · exact ⟨trivial, trivial⟩
  · have e : (cop1 (.ubfx 0 13) x).toNat = x.toNat % 8192 := by
      show (x >>> 0 &&& BitVec.ofNat 32 (2 ^ 13 - 1)).toNat = _
      rw [BitVec.toNat_and, lsr_toNat]
      simp only [BitVec.toNat_ofNat]
      exact (Nat.and_two_pow_sub_one_eq_mod _ 13).trans (by norm_num)
    refine ⟨h.1.low13 ?_, ?_⟩
    · rw [clo_toNat, clo_toNat, e]; omega
    · show (chi _).toNat = 0
      rw [chi_toNat, e]; omega
  · exact ⟨trivial, trivial⟩

theorem and_toNat (x : BitVec 32) : (x &&& 536813567#32).toNat = x.toNat / 65536 % 8192 * 65536 + x.toNat % 65536 % 8192 := by
  have e : x &&& 536813567#32 = (chi x &&& 8191#16) ++ (clo x &&& 8191#16) := by
    conv_lhs => rw [← join_lo_hi x]
    rw [show (536813567#32) = 8191#16 ++ 8191#16 by decide, BitVec.and_append]
  rw [e, BitVec.toNat_append, ← Nat.shiftLeft_add_eq_or_of_lt (BitVec.isLt _), Nat.shiftLeft_eq, BitVec.toNat_and, BitVec.toNat_and, chi_toNat,
    clo_toNat]
  rw [show BitVec.toNat 8191#16 = 2 ^ 13 - 1 by decide, Nat.and_two_pow_sub_one_eq_mod, Nat.and_two_pow_sub_one_eq_mod]

theorem lop2_ok (op : Op2) {x x' : BitVec 32} {w w' : LW} (h : LRW v x w) (h' : LRW v x' w') : LRW v (cop2 op x x') (lop2 op w w') := by
  unfold lop2
  split
  · rename_i a b
    have h : x.toNat = a := h
    have h' : x'.toNat = b := h'
    subst h h'
    exact BitVec.toNat_add x x'
  · rename_i l k n
    split
    · rename_i hn
      have hn : n = 536813567 := Nat.beq_eq.mp hn
      subst hn
      have h' : x'.toNat = 536813567 := h'
      have : x' = 536813567#32 := BitVec.eq_of_toNat_eq h'
      subst this
      have e := and_toNat x
      refine ⟨h.1.low13 ?_, h.2.low13 ?_⟩
      · show (clo (x &&& _)).toNat = _
        rw [clo_toNat, clo_toNat, e]; omega
      · show (chi (x &&& _)).toNat = _
        rw [chi_toNat, chi_toNat, e]; omega
    · exact ⟨trivial, trivial⟩
  · exact ⟨by simp only [cop2]; rw [clo_append]; exact h.lo.add h'.lo, by simp only [cop2]; rw [chi_append]; exact h.hi.add h'.hi⟩
  · exact ⟨by simp only [cop2]; rw [clo_append]; exact h.lo.sub h'.lo, by simp only [cop2]; rw [chi_append]; exact h.hi.sub h'.hi⟩
  · exact ⟨by simp only [cop2]; rw [clo_smul]; exact h.lo.mul h'.lo, trivial⟩
  · exact ⟨by simp only [cop2]; rw [clo_smul]; exact h.hi.mul h'.lo, trivial⟩
  · exact ⟨by simp only [cop2]; rw [clo_append]; exact h.lo, by simp only [cop2]; rw [chi_append]; exact h'.hi⟩
  · exact ⟨by simp only [cop2]; rw [clo_append]; exact h'.lo, by simp only [cop2]; rw [chi_append]; exact h.hi⟩
  · exact ⟨trivial, trivial⟩

/-- The machine follows the symbolic machine. -/
def lSim (v : Nat → Int) (hv : Carries v) : Sim ldom where
  RH := LRH v
  RW := LRW v
  lo h := h.lo
  hi h := h.hi
  join h h' := ⟨by rw [clo_append]; exact h, by rw [chi_append]; exact h'⟩
  zero := rfl
  const n := BitVec.toNat_ofNat _ _
  known {x w n} h e := by
    cases w with
    | hh l k => simp [ldom] at e
    | cst k =>
      have : some k = some n := e
      simp only [Option.some.injEq] at this
      subst this
      exact h
  op1 op _ _ h := lop1_ok hv op h
  op2 op _ _ _ _ h h' := lop2_ok op h h'
  op3 _ _ _ _ _ _ _ _ _ _ := ⟨trivial, trivial⟩
  wr {m o i c m'} h := by
    obtain ⟨m'', e1, e2, e3⟩ := KM.wrK_rd m o i c _ _ h
    cases e1
    exact ⟨e2, e3⟩
  force w k := LW.force_eq w k

end

end Saber.Arm
