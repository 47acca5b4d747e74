import Verif.Proof.Arm.KeccakR
/-!
# The assembly of `asm_KeccakF-1600.S` computes the permutation on interleaved lanes
-/
namespace Saber.Arm.Keccak
open Saber.Spec.Keccak (round rounds)

theorem steps_append {D : Dom} (l l' : List Ins) (s : State D) : steps (l ++ l') s = match steps l s with
    | some s => steps l' s
    | none => none := by
  induction l generalizing s with
  | nil => rfl
  | cons i l ih =>
    simp only [List.cons_append, steps]
    cases step i s with
    | none => rfl
    | some s => exact ih s

/-- The word at a place of the memory of the machine. -/
def cword (m : conc.M) (w : Nat) : BitVec 32 := match conc.rd m 0 (2 * w), conc.rd m 0 (2 * w + 1) with
  | some (.half l), some (.half h) => BitVec.append (n := 16) (m := 16) h l
  | _, _ => 0

variable {g : Reg → CVal} {hg : ∀ r, g r ≠ .undef} {m0 : conc.M}

theorem word_ok {e : Nat → BitVec 32} {m : conc.M} {m' : KM RH} (hm : (rSim e).RM (Ctx.plain (regEnv g) (regEnv_known hg) m0) m m') {w : Nat}
    (hw : RW.known (wordAt m' w) = true) : conc.rd m 0 (2 * w) = some (.half (clo (cword m w))) ∧
      conc.rd m 0 (2 * w + 1) = some (.half (chi (cword m w))) ∧ RRW e (cword m w) (wordAt m' w) := by
  unfold wordAt at hw ⊢
  cases ha : KM.rd m' 0 (Nat.mul 2 w) with
  | none => rw [ha] at hw; simp [RW.known] at hw
  | some ca =>
    cases hb : KM.rd m' 0 (Nat.succ (Nat.mul 2 w)) with
    | none => rw [ha, hb] at hw; cases ca <;> simp [RW.known] at hw
    | some cb =>
      rw [ha, hb] at hw
      cases ca with
      | undef => simp [RW.known] at hw
      | frag x b => simp [RW.known] at hw
      | half a =>
        cases cb with
        | undef => simp [RW.known] at hw
        | frag x b => simp [RW.known] at hw
        | half b =>
          obtain ⟨-, c, h1, l, rfl, hl⟩ := hm.rd 0 _ _ ha
          obtain ⟨-, c, h2, h, rfl, hh⟩ := hm.rd 0 _ _ hb
          change conc.rd m 0 (0 + 2 * w) = _ at h1
          change conc.rd m 0 (0 + (2 * w + 1)) = _ at h2
          rw [Nat.zero_add] at h1 h2
          have e1 : cword m w = BitVec.append (n := 16) (m := 16) h l := by
            unfold cword
            rw [h1, h2]
          rw [h1, h2, e1]
          refine ⟨?_, ?_, RRH.join hl hh⟩
          · exact congrArg (fun x => some (Cell.half x)) (clo_append h l).symm
          · exact congrArg (fun x => some (Cell.half x)) (chi_append h l).symm

theorem atomEq_eq {x y : Atom} (h : atomEq x y = true) : x = y := by
  cases x <;> cases y <;> simp_all [atomEq]

theorem cellLe_ok {e e' : Nat → BitVec 32} {X : Ctx} {m : conc.M} {m' : KM RH} (hm : (rSim e).RM X m m') {o i : Nat} {c' : Cell RH}
    (h : cellLe (KM.rd m' o i) c' = true) : X.dom o i ∧ ∃ c, conc.rd m (X.ob o) (X.off o + i) = some c ∧ (rSim e').RC X c c' := by
  cases hr : KM.rd m' o i with
  | none => rw [hr] at h; cases c' <;> simp [cellLe] at h
  | some c0 =>
    rw [hr] at h
    obtain ⟨hd, c, h1, h2⟩ := hm.rd o i _ hr
    refine ⟨hd, c, h1, ?_⟩
    unfold cellLe at h
    split at h
    · cases c <;> trivial
    · rename_i x b x' b' heq
      cases heq
      rw [Bool.and_eq_true] at h
      rw [← atomEq_eq h.1, ← eq_of_beq h.2]
      cases x <;> exact h2
    · rename_i k k' heq
      cases heq
      rw [← Nat.beq_eq.mp h]
      exact h2
    · rename_i k k' heq
      cases heq
      rw [← Nat.beq_eq.mp h]
      exact h2
    · cases h

theorem RM_step {e e' : Nat → BitVec 32} {m : conc.M} {m' : KM RH} {n : Nat} (hm : (rSim e).RM (Ctx.plain (regEnv g) (regEnv_known hg) m0) m m')
    (h0 : ∀ w, w < 50 → conc.rd m 0 (2 * w) = some (.half (clo (e' w))) ∧ conc.rd m 0 (2 * w + 1) = some (.half (chi (e' w))))
    (h1 : (List.range 98).all (fun i => cellLe (KM.rd m' 1 i) (halfOf i (rcW (i.div 2)))) = true)
    (h2 : (List.range 32).all (fun i => cellLe (KM.rd m' 2 i) (stackCell (n.div 4) i)) = true) :
    (rSim e').RM (Ctx.plain (regEnv g) (regEnv_known hg) m0) m (kmemOf (roundObj n)) := by
  refine ⟨hm.len, fun ob i c' hc => ?_, hm.frame⟩
  obtain ⟨p, hp, hi, rfl⟩ := rd_kmemOf (H := RH) hc
  match ob with
  | 0 =>
    cases hp
    have hi : i < 100 := hi
    obtain ⟨a1, a2⟩ := h0 (i / 2) (by omega)
    have hv : RRW e' (e' (i / 2)) (rvar (i.div 2)) := by
      refine ⟨by decide, ?_⟩
      show _ = 0#32 ^^^ ((e' (32 * (i / 2) / 32)).rotateRight (32 * (i / 2) % 32) ^^^ 0#32)
      rw [show 32 * (i / 2) / 32 = i / 2 by omega, show 32 * (i / 2) % 32 = 0 by omega]
      simp
      apply BitVec.eq_of_getLsbD_eq
      intro j hj
      rw [getLsbD_ror _ _ _ hj]
      congr 1
      omega
    refine ⟨trivial, ?_⟩
    show ∃ c, conc.rd m 0 (0 + i) = some c ∧ _
    rw [Nat.zero_add]
    show ∃ c, _ ∧ (rSim e').RC _ c (halfOf i _)
    unfold halfOf
    rcases Nat.mod_two_eq_zero_or_one i with h | h
    · rw [show 2 * (i / 2) = i by omega] at a1
      rw [a1, show i.mod 2 = 0 from h]
      exact ⟨_, rfl, _, rfl, _, hv, rfl⟩
    · rw [show 2 * (i / 2) + 1 = i by omega] at a2
      rw [a2, show i.mod 2 = 1 from h]
      exact ⟨_, rfl, _, rfl, _, hv, rfl⟩
  | 1 =>
    cases hp
    have hi : i < 98 := hi
    exact cellLe_ok hm (List.all_eq_true.mp h1 i (List.mem_range.mpr hi))
  | 2 =>
    cases hp
    have hi : i < 32 := hi
    exact cellLe_ok hm (List.all_eq_true.mp h2 i (List.mem_range.mpr hi))
  | n + 3 => simp [roundObj] at hp

theorem RS_step {e e' : Nat → BitVec 32} {s : State conc} {s' : State rdom} {n : Nat}
    (h : (rSim e).RS (Ctx.plain (regEnv g) (regEnv_known hg) m0) s s') (hp : isP s'.r0 0 0 = true) (hq : isP s'.sp 2 0 = true)
    (h0 : ∀ w, w < 50 → conc.rd s.mem 0 (2 * w) = some (.half (clo (e' w))) ∧ conc.rd s.mem 0 (2 * w + 1) = some (.half (chi (e' w))))
    (h1 : (List.range 98).all (fun i => cellLe (KM.rd s'.mem 1 i) (halfOf i (rcW (i.div 2)))) = true)
    (h2 : (List.range 32).all (fun i => cellLe (KM.rd s'.mem 2 i) (stackCell (n.div 4) i)) = true) :
    (rSim e').RS (Ctx.plain (regEnv g) (regEnv_known hg) m0) s (roundK n) := by
  refine ⟨fun r => ?_, RM_step (hg := hg) h.mem h0 h1 h2, ⟨fun b hb => (by cases hb), fun b hb => (by cases hb)⟩⟩
  have a1 := h.reg .r0
  rw [show s'.get .r0 = _ from isP_eq hp] at a1
  have a2 := h.reg .sp
  rw [show s'.get .sp = _ from isP_eq hq] at a2
  cases r <;> first | exact a1 | exact a2 | (show (rSim e').RV _ _ .undef; unfold Sim.RV; trivial)

theorem loc_lt : ∀ k : Fin 5, ∀ x y : Fin 5, ∀ h : Fin 2, loc k x y h < 50 := by decide +kernel

theorem rvar_ok (e : Nat → BitVec 32) (w : Nat) : RRW e (e w) (rvar w) := by
  refine ⟨by decide, ?_⟩
  show _ = 0#32 ^^^ ((e (32 * w / 32)).rotateRight (32 * w % 32) ^^^ 0#32)
  rw [show 32 * w / 32 = w by omega, show 32 * w % 32 = 0 by omega]
  simp
  apply BitVec.eq_of_getLsbD_eq
  intro j hj
  rw [getLsbD_ror _ _ _ hj]
  congr 1
  omega

theorem mem_r5 (x : Fin 5) : x.val ∈ r5 := by revert x; decide
theorem mem_01 (x : Fin 2) : x.val ∈ [0, 1] := by revert x; decide

/-- One round. -/
theorem round_step {e : Nat → BitVec 32} {n : Nat} (hn : n < 24) {s : State conc}
    (h : (rSim e).RS (Ctx.plain (regEnv g) (regEnv_known hg) m0) s (roundK n)) :
    ∃ s' e', steps (roundOf (n % 4)) s = some s' ∧ (rSim e').RS (Ctx.plain (regEnv g) (regEnv_known hg) m0) s' (roundK (n + 1)) ∧
      (∀ (x y : Fin 5) (k : Fin 2), e' (loc (n % 4 + 1) x y k) = roundG conc (fun x y k => e (loc (n % 4) x y k)) (rcC n) x y k) ∧
      (n % 4 = 3 → s'.fl.eq = some (Nat.beq n 23)) := by
  have hc := roundCheck_ok n hn
  unfold roundCheck at hc
  cases hk : steps (roundOf (n.mod 4)) (roundK n) with
  | none => simp [hk] at hc
  | some t =>
  simp only [hk] at hc
  obtain ⟨s', e1, e2⟩ := steps_sim _ h hk
  unfold roundFinal at hc
  simp only [Bool.and_eq_true] at hc
  obtain ⟨⟨c1, c2, c3, c4, c5, c6⟩, c7⟩ := hc
  refine ⟨s', cword s'.mem, e1, ?_, fun x y k => ?_, fun h3 => ?_⟩
  · refine RS_step (hg := hg) e2 c1 c2 (fun w hw => ?_) c4 c5
    obtain ⟨a1, a2, -⟩ := word_ok (hg := hg) e2.mem (List.all_eq_true.mp c3 w (List.mem_range.mpr hw))
    exact ⟨a1, a2⟩
  · have hl : loc (n % 4 + 1) x y k < 50 := loc_lt ⟨n % 4 + 1, by omega⟩ x y k
    obtain ⟨-, -, a3⟩ := word_ok (hg := hg) e2.mem (List.all_eq_true.mp c3 _ (List.mem_range.mpr hl))
    have c6 := List.all_eq_true.mp (List.all_eq_true.mp (List.all_eq_true.mp c6 x.val (mem_r5 x)) y.val (mem_r5 y)) k.val (mem_01 k)
    have := roundG_sim (R := rSim e) (a := fun x y h => e (loc (n % 4) x y h)) (b := fun x y h => rvar (loc (n.mod 4) x y h))
      (fun x y h => rvar_ok e _) (rc := rcC n) (rc' := fun h => rcW (Nat.add (Nat.mul 2 n) h)) (fun h => ?_) x.val y.val k.val
    · rw [show wordAt t.mem (loc (n % 4 + 1) x y k) = _ from RW.eq_eq c6] at a3
      refine RRW.unique ?_ a3 this
      have h6 := c6
      rw [show wordAt t.mem (loc ((n.mod 4).succ) x y k) = _ from RW.eq_eq c6] at h6
      exact h6
    · refine ⟨BitVec.isLt _, ?_⟩
      show _ = BitVec.ofNat 32 (roundConstants.getD (2 * n + h) 0).toNat ^^^ 0#32
      rw [BitVec.ofNat_toNat, BitVec.setWidth_eq, BitVec.xor_zero]
      rfl
  · rw [show n.mod 4 = 3 from h3] at c7
    simp only at c7
    cases hf : t.fl.eq with
    | none => rw [hf] at c7; cases c7
    | some b =>
      rw [hf] at c7
      rw [e2.fl.1 b hf]
      exact congrArg some (eq_of_beq c7)

/-- The state before round `n`: the words hold the lanes of `S` at the places `loc`. -/
def Inv (g : Reg → CVal) (hg : ∀ r, g r ≠ .undef) (m0 : conc.M) (n : Nat) (S : Spec.Keccak.State) (s : State conc) : Prop :=
  ∃ e, (rSim e).RS (Ctx.plain (regEnv g) (regEnv_known hg) m0) s (roundK n) ∧ Holds (fun x y h => e (loc (n % 4) x y h)) S

theorem Inv.step {n : Nat} (hn : n < 24) {S : Spec.Keccak.State} {s : State conc} (h : Inv g hg m0 n S s) :
    ∃ s', steps (roundOf (n % 4)) s = some s' ∧ Inv g hg m0 (n + 1) (round n S) s' ∧ (n % 4 = 3 → s'.fl.eq = some (Nat.beq n 23)) := by
  obtain ⟨e, h1, h2⟩ := h
  obtain ⟨s', e', a1, a2, a3, a4⟩ := round_step (hg := hg) hn h1
  refine ⟨s', a1, ⟨e', a2, fun x y z => ?_⟩, a4⟩
  have := round_holds hn h2 x y z
  rw [← this, ← a3 x y ⟨z.val % 2, Nat.mod_lt _ (by decide)⟩]
  refine congrArg (fun w => BitVec.getLsbD (e' w) (z.val / 2)) ?_
  show loc ((n + 1) % 4) x.val y.val (z.val % 2) = loc (n % 4 + 1) x.val y.val (z.val % 2)
  by_cases h3 : n % 4 = 3
  · rw [h3, show (n + 1) % 4 = 0 by omega]
    exact (loc_four x y ⟨z.val % 2, Nat.mod_lt _ (by decide)⟩).symm
  · rw [show (n + 1) % 4 = n % 4 + 1 by omega]

/-- One iteration of the loop. -/
theorem Inv.iter {k : Nat} (hk : k < 6) {S : Spec.Keccak.State} {s : State conc} (h : Inv g hg m0 (4 * k) S s) :
    ∃ s', steps roundLoop s = some s' ∧ Inv g hg m0 (4 * (k + 1)) (round (4 * k + 3) (round (4 * k + 2) (round (4 * k + 1) (round (4 * k) S)))) s' ∧
      s'.fl.eq = some (Nat.beq (4 * k + 3) 23) := by
  obtain ⟨s1, a1, b1, -⟩ := h.step (by omega)
  obtain ⟨s2, a2, b2, -⟩ := b1.step (by omega)
  obtain ⟨s3, a3, b3, -⟩ := b2.step (by omega)
  obtain ⟨s4, a4, b4, c4⟩ := b3.step (by omega)
  rw [show 4 * k % 4 = 0 by omega] at a1
  rw [show (4 * k + 1) % 4 = 1 by omega] at a2
  rw [show (4 * k + 1 + 1) % 4 = 2 by omega] at a3
  rw [show (4 * k + 1 + 1 + 1) % 4 = 3 by omega] at a4
  have c4 := c4 (by omega)
  simp only [roundOf] at a1 a2 a3 a4
  unfold roundLoop
  rw [steps_append, steps_append, steps_append, steps_append, a1]
  simp only [a2, a3, a4]
  simp only [steps, Arm.step, c4]
  have hc : ∀ s' : State conc, s' = s4 ∨ s' = s4.set .r1 (.a (.code 1064)) →
      Inv g hg m0 (4 * (k + 1)) (round (4 * k + 3) (round (4 * k + 2) (round (4 * k + 1) (round (4 * k) S)))) s' := by
    rintro s' (rfl | rfl)
    · exact b4
    · obtain ⟨e, h1, h2⟩ := b4
      refine ⟨e, ⟨fun r => ?_, ?_, ?_⟩, h2⟩
      · have := h1.reg r
        cases r <;> first | exact this | (show (rSim e).RV _ _ .undef; unfold Sim.RV; trivial)
      · exact h1.mem
      · exact h1.fl
  show ∃ s' : State conc, _ ∧ _ ∧ s'.fl.eq = some (Nat.beq (4 * k + 1 + 1 + 1) 23)
  cases hb : Nat.beq (4 * k + 1 + 1 + 1) 23 with
  | true => exact ⟨s4, rfl, hc _ (.inl rfl), by rw [c4, hb]⟩
  | false => exact ⟨_, rfl, hc _ (.inr rfl), by rw [fl_set, c4, hb]⟩

theorem rounds_four (n : Nat) (S : Spec.Keccak.State) : round (n + 3) (round (n + 2) (round (n + 1) (round n (rounds n S)))) = rounds (n + 4) S := rfl

/-- The loop. -/
theorem loop_ok (S : Spec.Keccak.State) (j : Nat) : ∀ (k fuel : Nat), k + j = 5 → j < fuel → ∀ s, Inv g hg m0 (4 * k) (rounds (4 * k) S) s →
    ∃ s', doNe roundLoop fuel s = some s' ∧ Inv g hg m0 24 (rounds 24 S) s' := by
  induction j with
  | zero =>
    intro k fuel hk hf s h
    obtain ⟨f, rfl⟩ := Nat.exists_eq_succ_of_ne_zero (Nat.ne_of_gt hf)
    obtain ⟨s', a1, a2, a3⟩ := h.iter (by omega)
    have hk : k = 5 := by omega
    subst hk
    refine ⟨s', ?_, a2⟩
    rw [doNe, a1]
    simp only [a3]
  | succ j ih =>
    intro k fuel hk hf s h
    obtain ⟨f, rfl⟩ := Nat.exists_eq_succ_of_ne_zero (show fuel ≠ 0 by omega)
    obtain ⟨s', a1, a2, a3⟩ := h.iter (by omega)
    obtain ⟨s2, b1, b2⟩ := ih (k + 1) f (by omega) (by omega) s' a2
    refine ⟨s2, ?_, b2⟩
    rw [doNe, a1]
    have : Nat.beq (4 * k + 3) 23 = false := by
      cases hb : Nat.beq (4 * k + 3) 23 with
      | false => rfl
      | true => exact absurd (Nat.beq_eq.mp hb) (by omega)
    simp only [a3, this]
    exact b1

/-! ### The function -/

theorem length_words (l : List (BitVec 32)) : (words l).length = 2 * l.length := by
  induction l with
  | nil => rfl
  | cons x l ih => simp only [words, List.length_cons, ih]; omega

theorem getElem?_words (l : List (BitVec 32)) : ∀ w, w < l.length →
    (words l)[2 * w]? = some (.half (clo (l.getD w 0))) ∧ (words l)[2 * w + 1]? = some (.half (chi (l.getD w 0))) := by
  induction l with
  | nil => intro w hw; simp at hw
  | cons x l ih =>
    intro w hw
    cases w with
    | zero => exact ⟨rfl, rfl⟩
    | succ w => exact ih w (by simpa using hw)

theorem words_of : ∀ (n : Nat) (c : List (Cell (BitVec 16))) (f : Nat → BitVec 32), c.length = 2 * n →
    (∀ w, w < n → c[2 * w]? = some (.half (clo (f w))) ∧ c[2 * w + 1]? = some (.half (chi (f w)))) → c = words ((List.range n).map f) := by
  intro n
  induction n with
  | zero => intro c f hc _; simpa [words] using hc
  | succ n ih =>
    intro c f hc h
    match c, hc with
    | a :: b :: c, hc =>
      obtain ⟨h1, h2⟩ := h 0 (by omega)
      simp only [Nat.mul_zero, Nat.zero_add, List.getElem?_cons_zero, List.getElem?_cons_succ, Option.some.injEq] at h1 h2
      subst h1 h2
      rw [List.range_succ_eq_map, List.map_cons, List.map_map, words]
      congr 2
      exact ih c (f ∘ Nat.succ) (by simpa using by simp at hc; omega) fun w hw => h (w + 1) (by omega)

theorem unwords_words (l : List (BitVec 32)) : unwords (words l) = some l := by
  induction l with
  | nil => rfl
  | cons x l ih =>
    rw [words, unwords, ih]
    simp only [join_lo_hi]

/-- The state array whose even and odd bits are in the words of `W`. -/
def interleaved (W : List (BitVec 32)) : Spec.Keccak.State := fun x y z => (W.getD (2 * (5 * y.val + x.val) + z.val % 2) 0).getLsbD (z.val / 2)

theorem length3 {α : Type} {l : List α} (h : l.length = 3) : ∃ a b c, l = [a, b, c] := by
  match l, h with
  | [a, b, c], _ => exact ⟨a, b, c, rfl⟩

theorem rcW_ok (e : Nat → BitVec 32) (w : Nat) : RRW e (roundConstants.getD w 0) (rcW w) := by
  refine ⟨BitVec.isLt _, ?_⟩
  show _ = BitVec.ofNat 32 (roundConstants.getD w 0).toNat ^^^ 0#32
  rw [BitVec.ofNat_toNat, BitVec.setWidth_eq, BitVec.xor_zero]

theorem halfOf_ok {e : Nat → BitVec 32} {X : Ctx} {c : List (Cell (BitVec 16))} {f : Nat → BitVec 32} {i : Nat} {w : RW}
    (h : c[2 * (i / 2)]? = some (.half (clo (f (i / 2)))) ∧ c[2 * (i / 2) + 1]? = some (.half (chi (f (i / 2)))))
    (hw : RRW e (f (i / 2)) w) : ∃ x, c[i]? = some x ∧ (rSim e).RC X x (halfOf i w) := by
  unfold halfOf
  rcases Nat.mod_two_eq_zero_or_one i with h0 | h0
  · have a1 := h.1
    rw [show 2 * (i / 2) = i by omega] at a1
    rw [a1, show i.mod 2 = 0 from h0]
    exact ⟨_, rfl, _, rfl, _, hw, rfl⟩
  · have a2 := h.2
    rw [show 2 * (i / 2) + 1 = i by omega] at a2
    rw [a2, show i.mod 2 = 1 from h0]
    exact ⟨_, rfl, _, rfl, _, hw, rfl⟩

theorem known_of_eq {w w' : RW} (h : w.eq w' = true) : RW.known w = true := by
  cases w <;> first | rfl | (cases w' <;> cases h)

/-- The complete behaviour of `KeccakF1600_StatePermute`. -/
theorem perm_run (g : Reg → CVal) (hg : ∀ r, g r ≠ .undef) (st : List (BitVec 32)) (stk : List (Cell (BitVec 16))) (hst : st.length = 50)
    (hs : stk.length = 32) : ∃ s st' stk', permF conc (permStart g st stk) = some s ∧ s.mem = [words st', words roundConstants, stk'] ∧
      st'.length = 50 ∧ interleaved st' = rounds 24 (interleaved st) ∧ s.pc = .a (.code 99) ∧ s.sp = .a (.ptr 2 64) ∧
      (s.r4 = g .r4 ∧ s.r5 = g .r5 ∧ s.r6 = g .r6 ∧ s.r7 = g .r7 ∧ s.r8 = g .r8 ∧ s.r9 = g .r9 ∧ s.sl = g .sl ∧ s.fp = g .fp) ∧
      s.ip = g .ip := by
  let e : Nat → BitVec 32 := fun v => st.getD v 0
  let m0 : conc.M := (permStart g st stk).mem
  let X := Ctx.plain (regEnv g) (regEnv_known hg) m0
  have hm : (rSim e).RM X m0 permK.mem := by
    refine ⟨rfl, fun ob i c' hc => ?_, fun _ _ _ => rfl⟩
    obtain ⟨p, hp, hi, rfl⟩ := rd_kmemOf (H := RH) hc
    refine ⟨trivial, ?_⟩
    show ∃ c, conc.rd m0 ob (0 + i) = some c ∧ _
    rw [Nat.zero_add]
    match ob with
    | 0 =>
      cases hp
      have hi : i < 100 := hi
      rw [conc_rd (c := words st) rfl]
      exact halfOf_ok (f := e) (getElem?_words st (i / 2) (by omega)) (rvar_ok e _)
    | 1 =>
      cases hp
      have hi : i < 98 := hi
      rw [conc_rd (c := words roundConstants) rfl]
      exact halfOf_ok (f := fun w => roundConstants.getD w 0)
        (getElem?_words roundConstants (i / 2) (by rw [show roundConstants.length = 49 from rfl]; omega)) (rcW_ok e _)
    | 2 =>
      cases hp
      have hi : i < 32 := hi
      rw [conc_rd (c := stk) rfl]
      exact ⟨stk[i], List.getElem?_eq_getElem (by omega), by cases stk[i] <;> trivial⟩
    | n + 3 => simp at hp
  have h0 : (rSim e).RS X ((permStart g st stk).set .r1 (.a (.ptr 1 0))) permK := by
    refine ⟨fun r => ?_, hm, FlR.refl _⟩
    cases r <;> try rfl
    any_goals (show (rSim e).RV X _ .undef; unfold Sim.RV; trivial)
    show (Val.a _ : CVal) = _
    rw [hs]
    rfl
  -- prologue
  have hc := prologueCheck_ok
  unfold prologueCheck at hc
  cases hk : steps prologue permK with
  | none => simp [hk] at hc
  | some t =>
  simp only [hk] at hc
  obtain ⟨s1, e1, e2⟩ := steps_sim _ h0 hk
  unfold stateLe at hc
  simp only [Bool.and_eq_true] at hc
  obtain ⟨c1, c2, c3, c4, c5⟩ := hc
  have hw (w : Nat) (h : w < 50) := word_ok (hg := hg) (m0 := m0) e2.mem (known_of_eq (List.all_eq_true.mp c3 w (List.mem_range.mpr h)))
  have i0 : Inv g hg m0 0 (interleaved st) s1 := by
    refine ⟨cword s1.mem, RS_step (hg := hg) e2 c1 c2 (fun w h => ⟨(hw w h).1, (hw w h).2.1⟩) c4 c5, fun x y z => ?_⟩
    have hlt := loc_lt 0 x y ⟨z.val % 2, Nat.mod_lt _ (by decide)⟩
    have := (hw _ hlt).2.2
    rw [RW.eq_eq (List.all_eq_true.mp c3 _ (List.mem_range.mpr hlt))] at this
    have := RRW.unique (by simp [rvar, RW.eq, eqK]) this (rvar_ok e _)
    show BitVec.getLsbD (cword s1.mem (loc 0 x.val y.val (z.val % 2))) _ = _
    exact congrArg (fun v => BitVec.getLsbD v (z.val / 2)) this
  -- loop
  obtain ⟨s2, e3, i1⟩ := loop_ok (interleaved st) 5 0 256 rfl (by decide) s1 i0
  obtain ⟨f, r2, hf⟩ := i1
  -- epilogue
  have hc := epilogueCheck_ok
  unfold epilogueCheck at hc
  cases hk' : steps epilogue (roundK 24) with
  | none => simp [hk'] at hc
  | some u =>
  simp only [hk'] at hc
  obtain ⟨s3, e4, e5⟩ := steps_sim _ r2 hk'
  simp only [Bool.and_eq_true] at hc
  obtain ⟨d1, d2, d3, d4, d5, d6⟩ := hc
  have hw' (w : Nat) (h : w < 50) := word_ok (hg := hg) (m0 := m0) e5.mem (known_of_eq (List.all_eq_true.mp d1 w (List.mem_range.mpr h)))
  have hv (w : Nat) (h : w < 50) : cword s3.mem w = f w := by
    have := (hw' w h).2.2
    rw [RW.eq_eq (List.all_eq_true.mp d1 _ (List.mem_range.mpr h))] at this
    exact RRW.unique (by simp [rvar, RW.eq, eqK]) this (rvar_ok f _)
  have hlen : (cmem s3.mem).length = 3 := by
    have := congrArg List.length e5.mem.len
    exact (List.length_map (as := cmem s3.mem) List.length).symm.trans this
  obtain ⟨x0, x1, x2, hx⟩ := length3 hlen
  have hlens : [x0.length, x1.length, x2.length] = [(words st).length, (words roundConstants).length, stk.length] := by
    have := e5.mem.len
    change (cmem s3.mem).map List.length = _ at this
    rw [hx] at this
    exact this
  simp only [List.cons.injEq, and_true] at hlens
  obtain ⟨l0, l1, -⟩ := hlens
  rw [length_words] at l0 l1
  have g0 : x0 = words ((List.range 50).map (cword s3.mem)) := by
    refine words_of 50 x0 _ (by omega) fun w h => ?_
    obtain ⟨a1, a2, -⟩ := hw' w h
    rw [conc_rd (c := x0) (by rw [hx]; rfl)] at a1 a2
    exact ⟨a1, a2⟩
  have g1 : x1 = words roundConstants := by
    have : roundConstants = (List.range 49).map fun w => roundConstants.getD w 0 := by decide +kernel
    rw [this]
    refine words_of 49 x1 _ (by rw [l1]; rfl) fun w h => ?_
    have key (i : Nat) (hi : i < 98) := cellLe_ok (e' := f) e5.mem (List.all_eq_true.mp d2 i (List.mem_range.mpr hi))
    obtain ⟨-, y, y1, y2⟩ := key (2 * w) (by omega)
    obtain ⟨-, z, z1, z2⟩ := key (2 * w + 1) (by omega)
    change conc.rd s3.mem 1 (0 + 2 * w) = _ at y1
    change conc.rd s3.mem 1 (0 + (2 * w + 1)) = _ at z1
    rw [Nat.zero_add, conc_rd (c := x1) (by rw [hx]; rfl)] at y1 z1
    rw [y1, z1]
    unfold halfOf at y2 z2
    rw [show (2 * w).mod 2 = 0 from Nat.mul_mod_right 2 w, show (2 * w).div 2 = w from Nat.mul_div_cancel_left w (by decide)] at y2
    rw [show (2 * w + 1).mod 2 = 1 by show (2 * w + 1) % 2 = 1; omega, show (2 * w + 1).div 2 = w by show (2 * w + 1) / 2 = w; omega] at z2
    obtain ⟨_, rfl, v, v1, rfl⟩ := y2
    obtain ⟨_, rfl, v', v1', rfl⟩ := z2
    have hq : (rcW w).eq (rcW w) = true := by simp [rcW, RW.eq, eqK]
    rw [RRW.unique hq v1 (rcW_ok f w), RRW.unique hq v1' (rcW_ok f w)]
    exact ⟨rfl, rfl⟩
  refine ⟨s3, (List.range 50).map (cword s3.mem), x2, ?_, ?_, by simp, ?_, ?_, ?_, saved_ok e5 (fun _ _ _ => rfl) d5, ?_⟩
  · unfold permF KeccakP1600_StatePermute
    simp only [run, e1, e3, e4]
  · rw [← g0, ← g1]
    exact hx
  · funext x y z
    rw [← hf x y z]
    have hx' := x.isLt
    have hy' := y.isLt
    have hlt : 2 * (5 * y.val + x.val) + z.val % 2 < 50 := by omega
    have hl := hv _ (loc_lt 0 x y ⟨z.val % 2, Nat.mod_lt _ (by decide)⟩)
    show _ = BitVec.getLsbD (f (loc 0 x.val y.val (z.val % 2))) _
    unfold interleaved
    refine congrArg (fun v => BitVec.getLsbD v (z.val / 2)) (Eq.trans ?_ hl)
    rw [List.getD_eq_getElem?_getD, List.getElem?_map, List.getElem?_range hlt]
    rfl
  · have := e5.reg .pc
    rw [show u.get .pc = _ from isC_eq d4] at this
    exact this
  · have := e5.reg .sp
    rw [show u.get .sp = _ from isP_eq d3] at this
    exact this
  · have := e5.reg .ip
    rw [show u.get .ip = _ from isO_eq d6] at this
    exact this

end Saber.Arm.Keccak
