import Verif.Proof.Arm.Form
import Verif.Proof.Arm.Sim
import Verif.Proof.Arm.KDom
/-!
# The machine follows the symbolic machine of linear and bilinear forms
-/
namespace Saber.Arm

/-! ### Trees -/

theorem T.setK_get {α β : Type} (t : T α) : ∀ (i : Nat) (v : α) (k : T α → Option β) (b : β), t.setK i v k = some b →
    ∃ t', k t' = some b ∧ (t.get i).isSome ∧ ∀ j, t'.get j = if j = i then some v else t.get j := by
  induction t with
  | e => intro i v k b h; simp [T.setK] at h
  | n l x r ihl ihr =>
    intro i v k b h
    by_cases h0 : i = 0
    · subst h0
      refine ⟨.n l v r, h, rfl, fun j => ?_⟩
      cases j with
      | zero => rfl
      | succ j => rfl
    · have b0 : Nat.beq i 0 = false := by
        cases i with
        | zero => exact absurd rfl h0
        | succ i => rfl
      by_cases h1 : i % 2 = 1
      · have b1 : Nat.beq (i.mod 2) 1 = true := Nat.beq_eq.mpr h1
        simp only [T.setK, b0, b1] at h
        obtain ⟨l', e1, e2, e3⟩ := ihl _ _ _ _ h
        refine ⟨.n l' x r, e1, ?_, fun j => ?_⟩
        · simp only [T.get, b0, b1]; exact e2
        · cases j with
          | zero => rw [if_neg (by omega)]; rfl
          | succ j =>
            have c0 : Nat.beq (j + 1) 0 = false := rfl
            simp only [T.get, c0]
            cases hj : Nat.beq ((j + 1).mod 2) 1 with
            | true =>
              have hj' : (j + 1) % 2 = 1 := Nat.beq_eq.mp hj
              simp only
              rw [e3]
              have : (j + 1).div 2 = i.div 2 ↔ j + 1 = i := by
                show (j + 1) / 2 = i / 2 ↔ _
                omega
              simp only [this]
            | false =>
              have hj' : ¬ (j + 1) % 2 = 1 := fun h => by rw [show (j + 1).mod 2 = 1 from h] at hj; simp at hj
              simp only
              rw [if_neg (by omega)]
      · have b1 : Nat.beq (i.mod 2) 1 = false := by
          cases hb : Nat.beq (i.mod 2) 1 with
          | false => rfl
          | true => exact absurd (Nat.beq_eq.mp hb) h1
        simp only [T.setK, b0, b1] at h
        obtain ⟨r', e1, e2, e3⟩ := ihr _ _ _ _ h
        refine ⟨.n l x r', e1, ?_, fun j => ?_⟩
        · simp only [T.get, b0, b1]; exact e2
        · cases j with
          | zero => rw [if_neg (by omega)]; rfl
          | succ j =>
            have c0 : Nat.beq (j + 1) 0 = false := rfl
            simp only [T.get, c0]
            cases hj : Nat.beq ((j + 1).mod 2) 1 with
            | true =>
              have hj' : (j + 1) % 2 = 1 := Nat.beq_eq.mp hj
              simp only
              rw [if_neg (by omega)]
            | false =>
              have hj' : ¬ (j + 1) % 2 = 1 := fun h => by rw [show (j + 1).mod 2 = 1 from h] at hj; simp at hj
              simp only
              rw [e3]
              have : ((j + 1).div 2).pred = (i.div 2).pred ↔ j + 1 = i := by
                show ((j + 1) / 2).pred = (i / 2).pred ↔ _
                rw [Nat.pred_eq_sub_one, Nat.pred_eq_sub_one]
                omega
              simp only [this]

theorem T.get_build {α : Type} (f : Nat → α) (n : Nat) (d : Nat) : ∀ (s o j : Nat) (x : α), 0 < s →
    (T.build f n d s o).get j = some x → s * j + o < n ∧ x = f (s * j + o) := by
  induction d with
  | zero => intro s o j x hs h; simp [T.build, T.get] at h
  | succ d ih =>
    intro s o j x hs h
    unfold T.build at h
    split at h
    · rename_i ho
      cases j with
      | zero =>
        have : some (f o) = some x := h
        simp only [Option.some.injEq] at this
        subst this
        simp [ho]
      | succ j =>
        have c0 : Nat.beq (j + 1) 0 = false := rfl
        simp only [T.get, c0] at h
        cases hj : Nat.beq ((j + 1).mod 2) 1 with
        | true =>
          have hj' : (j + 1) % 2 = 1 := Nat.beq_eq.mp hj
          rw [hj] at h
          have := ih _ _ _ _ (by omega) h
          have e : 2 * s * (j + 1).div 2 + (s + o) = s * (j + 1) + o := by
            show 2 * s * ((j + 1) / 2) + (s + o) = _
            have : 2 * ((j + 1) / 2) + 1 = j + 1 := by omega
            calc _ = s * (2 * ((j + 1) / 2) + 1) + o := by ring
              _ = _ := by rw [this]
          rw [e] at this
          exact this
        | false =>
          have hj' : ¬ (j + 1) % 2 = 1 := fun h => by rw [show (j + 1).mod 2 = 1 from h] at hj; simp at hj
          rw [hj] at h
          have := ih _ _ _ _ (by omega) h
          have e : 2 * s * ((j + 1).div 2).pred + (2 * s + o) = s * (j + 1) + o := by
            show 2 * s * ((j + 1) / 2).pred + (2 * s + o) = _
            rw [Nat.pred_eq_sub_one]
            have : 2 * ((j + 1) / 2 - 1) + 2 = j + 1 := by omega
            calc _ = s * (2 * ((j + 1) / 2 - 1) + 2) + o := by ring
              _ = _ := by rw [this]
          rw [e] at this
          exact this
    · simp [T.get] at h

theorem KM.wrK_rd {H β : Type} (m : KM H) : ∀ (o i : Nat) (c : Cell H) (k : KM H → Option β) (b : β), KM.wrK m o i c k = some b →
    ∃ m', k m' = some b ∧ (KM.rd m o i).isSome ∧ ∀ o' i', KM.rd m' o' i' = if o' = o ∧ i' = i then some c else KM.rd m o' i' := by
  induction m with
  | nil => intro o i c k b h; simp [KM.wrK] at h
  | cons t l ih =>
    intro o i c k b h
    cases o with
    | zero =>
      obtain ⟨t', e1, e2, e3⟩ := T.setK_get t i c _ b h
      refine ⟨t' :: l, e1, e2, fun o' i' => ?_⟩
      cases o' with
      | zero => simp only [KM.rd, e3, true_and]
      | succ o' => simp [KM.rd]
    | succ o =>
      obtain ⟨l', e1, e2, e3⟩ := ih o i c _ b h
      refine ⟨t :: l', e1, e2, fun o' i' => ?_⟩
      cases o' with
      | zero => simp [KM.rd]
      | succ o' => simp only [KM.rd, e3, Nat.add_right_cancel_iff]

/-! ### Halves of results -/

theorem clo_signExtend (a : BitVec 16) : (a.signExtend 32).setWidth 16 = a := by
  apply BitVec.eq_of_getLsbD_eq
  intro i hi
  rw [BitVec.getLsbD_setWidth, BitVec.getLsbD_signExtend]
  simp [hi]
  omega

theorem clo_add (x y : BitVec 32) : clo (x + y) = clo x + clo y := BitVec.setWidth_add _ _ (by omega)
theorem clo_mul (x y : BitVec 32) : clo (x * y) = clo x * clo y := BitVec.setWidth_mul _ _ (by omega)
theorem clo_sub (x y : BitVec 32) : clo (x - y) = clo x - clo y := by
  apply BitVec.eq_of_toNat_eq
  unfold clo
  rw [BitVec.toNat_setWidth, BitVec.toNat_sub, BitVec.toNat_sub, BitVec.toNat_setWidth, BitVec.toNat_setWidth]
  have := y.isLt
  omega
theorem clo_smul (a b : BitVec 16) : clo (smul a b) = a * b := by
  unfold smul
  rw [clo_mul]
  unfold clo
  rw [clo_signExtend, clo_signExtend]

theorem clo_lsl (x : BitVec 32) : clo (x <<< 16) = 0 := by
  apply BitVec.eq_of_toNat_eq
  unfold clo
  rw [BitVec.toNat_setWidth, BitVec.toNat_shiftLeft, Nat.shiftLeft_eq]
  simp
theorem chi_lsl (x : BitVec 32) : chi (x <<< 16) = clo x := by
  apply BitVec.eq_of_toNat_eq
  unfold clo chi
  rw [BitVec.toNat_setWidth, BitVec.toNat_ushiftRight, BitVec.toNat_shiftLeft, Nat.shiftLeft_eq, Nat.shiftRight_eq_div_pow,
    BitVec.toNat_setWidth]
  omega
theorem clo_lsr (x : BitVec 32) : clo (x >>> 16) = chi x := rfl
theorem chi_lsr (x : BitVec 32) : chi (x >>> 16) = 0 := by
  apply BitVec.eq_of_toNat_eq
  unfold chi
  rw [BitVec.toNat_setWidth, BitVec.toNat_ushiftRight, BitVec.toNat_ushiftRight, Nat.shiftRight_eq_div_pow, Nat.shiftRight_eq_div_pow]
  have := x.isLt
  simp
  omega
theorem clo_asr (x : BitVec 32) : clo (x.sshiftRight 16) = chi x := by
  apply BitVec.eq_of_getLsbD_eq
  intro i hi
  unfold clo chi
  rw [BitVec.getLsbD_setWidth, BitVec.getLsbD_setWidth, BitVec.getLsbD_sshiftRight, BitVec.getLsbD_ushiftRight]
  have : ¬ 32 ≤ i := by omega
  have : 16 + i < 32 := by omega
  simp [*]

/-! ### The simulation -/

section
variable (SH : Nat) (hSH : 0 < SH) (x y o : Nat → BitVec 16)

/-- What a symbolic halfword says about a halfword. -/
def KRH (h : BitVec 16) : KH → Prop
  | .zero => h = 0
  | .x p n m => Form KB x (· < SH) p n m h
  | .y p n m => Form KB (fun t => y (t / SH)) (fun t => t % SH = 0) p n m h
  | .xy p n m => Form KB (fun t => x (t % SH) * y (t / SH)) (fun _ => True) p n m h
  | .opq k => h = o k
  | .unk => True

variable {SH x y o}

theorem KRH.add {a b : BitVec 16} {a' b' : KH} (ha : KRH SH x y o a a') (hb : KRH SH x y o b b') : KRH SH x y o (a + b) (a'.add b') := by
  cases a' <;> cases b' <;> simp only [KH.add, KRH] at ha hb ⊢ <;>
    first
    | trivial
    | exact Form.add ha hb
    | (subst ha hb; simp)
    | (subst ha; simpa using hb)
    | (subst hb; simpa using ha)

theorem KRH.neg {a : BitVec 16} {a' : KH} (ha : KRH SH x y o a a') : KRH SH x y o (-a) a'.neg := by
  cases a' <;> simp only [KH.neg, KRH] at ha ⊢ <;>
    first
    | exact Form.neg ha
    | (subst ha; simp)

theorem KRH.sub {a b : BitVec 16} {a' b' : KH} (ha : KRH SH x y o a a') (hb : KRH SH x y o b b') : KRH SH x y o (a - b) (a'.sub b') := by
  rw [sub_eq_add_neg]
  exact ha.add hb.neg

include hSH in
theorem KRH.mul {a b : BitVec 16} {a' b' : KH} (ha : KRH SH x y o a a') (hb : KRH SH x y o b b') : KRH SH x y o (a * b) (a'.mul b') := by
  have key : ∀ t t', t < SH → t' % SH = 0 → x ((t + t') % SH) * y ((t + t') / SH) = x t * y (t' / SH) := by
    intro t t' h h'
    have e1 : (t + t') % SH = t := by rw [Nat.add_mod, h', Nat.add_zero, Nat.mod_mod, Nat.mod_eq_of_lt h]
    have e2 : (t + t') / SH = t' / SH := by
      obtain ⟨q, hq⟩ := Nat.dvd_of_mod_eq_zero h'
      subst hq
      rw [Nat.add_mul_div_left _ _ hSH, Nat.div_eq_of_lt h, Nat.zero_add, Nat.mul_div_cancel_left _ hSH]
    rw [e1, e2]
  cases a' <;> cases b' <;> simp only [KH.mul, KRH] at ha hb ⊢ <;>
    first
    | trivial
    | exact Form.mul key ha hb
    | (rw [mul_comm]; exact Form.mul key hb ha)
    | (subst ha; simp)
    | (subst hb; simp)

/-- What a symbolic word says about a word. -/
def KRW (SH : Nat) (x y o : Nat → BitVec 16) (v : BitVec 32) : KW → Prop
  | .hh l h => KRH SH x y o (clo v) l ∧ KRH SH x y o (chi v) h
  | .cst n => v.toNat = n

theorem KRW.lo {v : BitVec 32} {w : KW} (h : KRW SH x y o v w) : KRH SH x y o (clo v) w.lo := by
  cases w with
  | hh l k => exact h.1
  | cst n => trivial

theorem KRW.hi {v : BitVec 32} {w : KW} (h : KRW SH x y o v w) : KRH SH x y o (chi v) w.hi := by
  cases w with
  | hh l k => exact h.2
  | cst n => trivial

theorem forceN_eq {α : Type} (n : Nat) (k : Nat → α) : forceN n k = k n := by cases n <;> rfl

theorem KH.force_eq {α : Type} (h : KH) (k : KH → α) : h.force k = k h := by
  cases h <;> simp only [KH.force, forceN_eq]

theorem KW.force_eq {α : Type} (w : KW) (k : KW → α) : w.force k = k w := by
  cases w <;> simp only [KW.force, forceN_eq, KH.force_eq]

theorem kop1_ok (op : Op1) {v : BitVec 32} {w : KW} (h : KRW SH x y o v w) : KRW SH x y o (cop1 op v) (kop1 op w) := by
  unfold kop1
  split
  · exact h
  · refine ⟨?_, ?_⟩
    · show clo (v <<< 16) = 0
      exact clo_lsl v
    · show KRH SH x y o (chi (v <<< 16)) _
      rw [chi_lsl]; exact h.lo
  · refine ⟨?_, ?_⟩
    · exact h.hi
    · show chi (v >>> 16) = 0
      exact chi_lsr v
  · refine ⟨?_, trivial⟩
    show KRH SH x y o (clo (v.sshiftRight 16)) _
    rw [clo_asr]; exact h.hi
  · refine ⟨?_, ?_⟩
    · show KRH SH x y o (clo (BitVec.ofNat 16 0 ++ v.setWidth 16)) _
      rw [clo_append]; exact h.lo
    · show chi (BitVec.ofNat 16 0 ++ v.setWidth 16) = 0
      rw [chi_append]; rfl
  · exact ⟨trivial, trivial⟩

include hSH in
theorem kop2_ok (op : Op2) {v v' : BitVec 32} {w w' : KW} (h : KRW SH x y o v w) (h' : KRW SH x y o v' w') :
    KRW SH x y o (cop2 op v v') (kop2 op w w') := by
  cases op <;> simp only [cop2, kop2]
  · exact ⟨by rw [clo_add]; exact h.lo.add h'.lo, trivial⟩
  · exact ⟨by rw [clo_sub]; exact h.lo.sub h'.lo, trivial⟩
  · exact ⟨trivial, trivial⟩
  · exact ⟨trivial, trivial⟩
  · exact ⟨trivial, trivial⟩
  · exact ⟨by rw [clo_append]; exact h.lo.add h'.lo, by rw [chi_append]; exact h.hi.add h'.hi⟩
  · exact ⟨by rw [clo_append]; exact h.lo.sub h'.lo, by rw [chi_append]; exact h.hi.sub h'.hi⟩
  · exact ⟨by rw [clo_smul]; exact h.lo.mul hSH h'.lo, trivial⟩
  · exact ⟨by rw [clo_smul]; exact h.hi.mul hSH h'.lo, trivial⟩
  · exact ⟨by rw [clo_smul]; exact h.hi.mul hSH h'.hi, trivial⟩
  · exact ⟨by rw [clo_add, clo_smul, clo_smul]; exact (h.lo.mul hSH h'.lo).add (h.hi.mul hSH h'.hi), trivial⟩
  · exact ⟨by rw [clo_add, clo_smul, clo_smul]; exact (h.lo.mul hSH h'.hi).add (h.hi.mul hSH h'.lo), trivial⟩
  · exact ⟨by rw [clo_append]; exact h.lo, by rw [chi_append]; exact h'.hi⟩
  · exact ⟨by rw [clo_append]; exact h'.lo, by rw [chi_append]; exact h.hi⟩
  · exact ⟨trivial, trivial⟩
  · exact ⟨trivial, trivial⟩

include hSH in
theorem kop3_ok (op : Op3) {v v' v'' : BitVec 32} {w w' w'' : KW} (h : KRW SH x y o v w) (h' : KRW SH x y o v' w') (h'' : KRW SH x y o v'' w'') :
    KRW SH x y o (cop3 op v v' v'') (kop3 op w w' w'') := by
  cases op <;> simp only [cop3, kop3]
  · exact ⟨by rw [clo_add, clo_smul]; exact (h.lo.mul hSH h'.lo).add h''.lo, trivial⟩
  · exact ⟨by rw [clo_add, clo_smul]; exact (h.hi.mul hSH h'.hi).add h''.lo, trivial⟩
  · exact ⟨by rw [clo_add, clo_add, clo_smul, clo_smul]; exact ((h.lo.mul hSH h'.lo).add (h.hi.mul hSH h'.hi)).add h''.lo, trivial⟩
  · exact ⟨by rw [clo_add, clo_add, clo_smul, clo_smul]; exact ((h.lo.mul hSH h'.hi).add (h.hi.mul hSH h'.lo)).add h''.lo, trivial⟩

/-- The machine follows the symbolic machine. -/
def kSim (SH : Nat) (hSH : 0 < SH) (x y o : Nat → BitVec 16) : Sim kdom where
  RH := KRH SH x y o
  RW := KRW SH x y o
  lo h := h.lo
  hi h := h.hi
  join h h' := ⟨by rw [clo_append]; exact h, by rw [chi_append]; exact h'⟩
  zero := rfl
  const n := BitVec.toNat_ofNat _ _
  known {v w n} h e := by
    cases w with
    | hh l k => simp [kdom] at e
    | cst k =>
      have : some k = some n := e
      simp only [Option.some.injEq] at this
      subst this
      exact h
  op1 op _ _ h := kop1_ok op h
  op2 op _ _ _ _ h h' := kop2_ok hSH op h h'
  op3 op _ _ _ _ _ _ h h' h'' := kop3_ok hSH op h h' h''
  wr {m o i c m'} h := by
    obtain ⟨m'', e1, e2, e3⟩ := KM.wrK_rd m o i c _ _ h
    cases e1
    exact ⟨e2, e3⟩
  force w k := KW.force_eq w k

end

end Saber.Arm
